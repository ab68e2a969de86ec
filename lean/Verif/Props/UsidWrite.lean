import Verif.Props.Usid
/-! USID files: C117 (writing and reading back). -/
namespace Verif.Props.Usid
open Verif Verif.Usid

/-! ### The dimensions written -/

/-- The dimension of an axis with a number. -/
def dimOf (kind : Text) (i : Nat) (p : WAxis × Nat) : Dim :=
  ⟨textOr (kind ++ "_Dim_".toList ++ digits i) p.1.name, textOr "a. u.".toList p.1.units,
    (List.range p.2).map fun k : Nat => (k : ℚ) * p.1.scale + p.1.offset⟩

/-- From the fastest on. -/
def fastDims (kind : Text) : Nat → List (WAxis × Nat) → List Dim
  | _, [] => []
  | i, p :: l => dimOf kind i p :: fastDims kind (i + 1) l

/-- From the slowest on. -/
def slowDims (kind : Text) : List (WAxis × Nat) → List Dim
  | [] => []
  | p :: l => dimOf kind l.length p :: slowDims kind l

theorem fastDims_append (kind : Text) (x : WAxis × Nat) : ∀ (i : Nat) (l : List (WAxis × Nat)),
    fastDims kind i (l ++ [x]) = fastDims kind i l ++ [dimOf kind (i + l.length) x]
  | i, [] => by simp [fastDims]
  | i, p :: l => by
    rw [List.cons_append, fastDims, fastDims_append kind x (i + 1) l, fastDims, List.cons_append]
    congr 4
    simp; omega

theorem fastDims_reverse (kind : Text) : ∀ l : List (WAxis × Nat), (fastDims kind 0 l.reverse).reverse = slowDims kind l
  | [] => rfl
  | p :: l => by
    rw [List.reverse_cons, fastDims_append, List.reverse_append, fastDims_reverse kind l]
    simp [slowDims]

theorem toDims_ok (kind : Text) : ∀ (suf pre : List (WAxis × Nat)),
    toDims kind ((pre ++ suf).map Prod.snd).reverse pre.length (suf.map Prod.fst) = .ok (fastDims kind pre.length suf)
  | [], pre => by simp [toDims, fastDims]
  | p :: suf, pre => by
    have ih := toDims_ok kind suf (pre ++ [p])
    rw [List.append_assoc, List.length_append] at ih
    have hidx : pyIndex ((pre ++ p :: suf).map Prod.snd).reverse
        ((((pre ++ p :: suf).map Prod.snd).reverse.length : Int) - 1 - pre.length) = .ok p.2 := by
      have hlen : ((pre ++ p :: suf).map Prod.snd).reverse.length = pre.length + (suf.length + 1) := by simp; omega
      unfold pyIndex
      rw [hlen]
      have h0 : ¬ (((pre.length + (suf.length + 1) : Nat) : Int) - 1 - pre.length < 0) := by push_cast; omega
      simp only [if_neg h0]
      have h1 : (((pre.length + (suf.length + 1) : Nat) : Int) - 1 - pre.length).toNat = suf.length := by push_cast; omega
      rw [h1, List.getElem?_reverse (by simp; omega)]
      simp
    simp only [List.map_cons, toDims, hidx, bind, Except.bind, pure, Except.pure]
    simp only [List.singleton_append, List.length_singleton] at ih
    rw [ih]
    rfl

theorem axesToDims_ok (kind : Text) (l : List (WAxis × Nat)) : axesToDims kind (l.map Prod.fst).reverse (l.map Prod.snd) =
    .ok (if l = [] then [⟨"Arb".toList, "a. u.".toList, [0]⟩] else slowDims kind l) := by
  have h := toDims_ok kind l.reverse []
  simp only [List.nil_append, List.length_nil] at h
  rw [List.map_reverse, List.reverse_reverse, List.map_reverse] at h
  unfold axesToDims
  rw [h]
  simp only [bind, Except.bind, pure, Except.pure]
  cases l with
  | nil => rfl
  | cons p l =>
    rw [if_neg (by simp), ← fastDims_reverse]
    cases hf : fastDims kind 0 (p :: l).reverse with
    | nil =>
      rw [List.reverse_cons, fastDims_append] at hf
      simp at hf
    | cons d ds => rfl

/-- The dimensions of a kind in the file. -/
def written (kind : Text) (l : List (WAxis × Nat)) : List Dim :=
  if l = [] then [⟨"Arb".toList, "a. u.".toList, [0]⟩] else slowDims kind l

theorem slowDims_lengths (kind : Text) : ∀ l : List (WAxis × Nat), (slowDims kind l).map (·.values.length) = l.map Prod.snd
  | [] => rfl
  | p :: l => by simp [slowDims, slowDims_lengths kind l, dimOf]

theorem total_written (kind : Text) (l : List (WAxis × Nat)) : total (written kind l) = size (l.map Prod.snd) := by
  unfold total written
  split
  · rename_i h; subst h; rfl
  · rw [slowDims_lengths]

theorem filter_nav {s : WSig} {nav sig : List (WAxis × Nat)} (h : Writable s nav sig) :
    s.axes.filter (·.navigate) = nav.map Prod.fst ∧ (s.axes.filter fun a => !a.navigate) = sig.map Prod.fst := by
  have h1 : (nav.map Prod.fst).filter (·.navigate) = nav.map Prod.fst :=
    List.filter_eq_self.2 fun a ha => by obtain ⟨p, hp, rfl⟩ := List.mem_map.1 ha; exact h.navs p hp
  have h2 : (sig.map Prod.fst).filter (·.navigate) = [] :=
    List.filter_eq_nil_iff.2 fun a ha => by obtain ⟨p, hp, rfl⟩ := List.mem_map.1 ha; simp [h.sigs p hp]
  have h3 : (nav.map Prod.fst).filter (fun a => !a.navigate) = [] :=
    List.filter_eq_nil_iff.2 fun a ha => by obtain ⟨p, hp, rfl⟩ := List.mem_map.1 ha; simp [h.navs p hp]
  have h4 : (sig.map Prod.fst).filter (fun a => !a.navigate) = sig.map Prod.fst :=
    List.filter_eq_self.2 fun a ha => by obtain ⟨p, hp, rfl⟩ := List.mem_map.1 ha; simp [h.sigs p hp]
  rw [h.axes, List.filter_append, List.filter_append, h1, h2, h3, h4]
  simp

theorem layout_ok {s : WSig} {nav sig : List (WAxis × Nat)} (h : Writable s nav sig) :
    layout s = .ok (size (nav.map Prod.snd), size (sig.map Prod.snd), written "Pos".toList nav, written "Spec".toList sig) := by
  obtain ⟨h1, h2⟩ := filter_nav h
  have ht : s.shape.take nav.length = nav.map Prod.snd := by rw [h.shape]; simp
  have hd : s.shape.drop nav.length = sig.map Prod.snd := by rw [h.shape]; simp
  unfold layout
  simp only [h1, h2, List.length_reverse, List.length_map, ht, hd]
  by_cases hn : nav = []
  · subst hn
    have hsh : s.shape = sig.map Prod.snd := by rw [h.shape]; rfl
    have e1 := axesToDims_ok "Pos".toList []
    have e2 := axesToDims_ok "Spec".toList sig
    simp only [List.map_nil, List.reverse_nil] at e1 ⊢
    simp only [hsh, e1, e2, bind, Except.bind, pure, Except.pure, List.length_nil, gt_iff_lt, lt_self_iff_false, false_and, if_false, if_true]
    rfl
  · have hl : nav.length > 0 := List.length_pos_of_ne_nil hn
    by_cases hs : sig = []
    · subst hs
      have hsh : s.shape = nav.map Prod.snd := by rw [h.shape]; simp
      have e1 := axesToDims_ok "Spec".toList []
      have e2 := axesToDims_ok "Pos".toList nav
      simp only [List.map_nil, List.reverse_nil] at e1 ⊢
      simp only [hsh, e1, e2, bind, Except.bind, pure, Except.pure, List.length_nil, gt_iff_lt, lt_self_iff_false, and_false, if_false]
      rw [if_neg (by omega)]
      rfl
    · have hl' : sig.length > 0 := List.length_pos_of_ne_nil hs
      rw [if_pos ⟨hl, hl'⟩]
      simp only [axesToDims_ok, bind, Except.bind, pure, Except.pure]
      rfl

/-! ### The names -/

theorem textOr_trimmed {d n t : Text} (hn : n ≠ []) (h : Trimmed n t) : textOr d (some t) = n := by
  simp only [textOr]
  rw [strip_trimmed h, if_neg hn]

theorem strip_blank {t : Text} (h : ∀ c ∈ t, isSpace c = true) : stripBy isSpace t = [] :=
  strip_trimmed ⟨⟨t, [], by simp, h, by simp⟩, by simp, by simp⟩

theorem textOr_default {d : Text} {o : Option Text} (h : o = none ∨ ∃ t, o = some t ∧ ∀ c ∈ t, isSpace c = true) : textOr d o = d := by
  rcases h with rfl | ⟨t, rfl, h⟩
  · rfl
  · simp only [textOr]
    rw [strip_blank h, if_pos rfl]

theorem dimOf_name {kind n : Text} {i : Nat} {p : WAxis × Nat} (h : NameOf kind i p.1 n) : (dimOf kind i p).name = n := by
  unfold dimOf
  rcases h with ⟨t, e, hn, ht⟩ | ⟨h, rfl⟩
  · simp only [e]; exact textOr_trimmed hn ht
  · exact textOr_default h

theorem strip_is_trimmed (t : Text) : Trimmed (stripBy isSpace t) t := by
  unfold stripBy lstripBy rstripBy
  generalize hu : t.dropWhile isSpace = u
  refine ⟨⟨t.takeWhile isSpace, (u.reverse.takeWhile isSpace).reverse, ?_, ?_, ?_⟩, ?_, ?_⟩
  · rw [List.append_assoc, ← List.reverse_append, List.takeWhile_append_dropWhile, List.reverse_reverse, ← hu,
      List.takeWhile_append_dropWhile]
  · exact fun c hc => List.mem_takeWhile_imp hc
  · exact fun c hc => List.mem_takeWhile_imp (List.mem_reverse.1 hc)
  · intro c hc
    have hu' : ∀ c, u.head? = some c → isSpace c = false := by
      intro c hc
      rw [← hu] at hc
      have := List.head?_dropWhile_not isSpace t
      rw [hc] at this
      simpa using this
    apply hu'
    have hpre : (u.reverse.dropWhile isSpace).reverse <+: u := by
      have := List.dropWhile_suffix (p := isSpace) (l := u.reverse)
      rwa [← List.reverse_prefix, List.reverse_reverse] at this
    obtain ⟨w, hw⟩ := hpre
    rw [← hw]
    cases hd : (u.reverse.dropWhile isSpace).reverse with
    | nil => rw [hd] at hc; simp at hc
    | cons x xs => rw [hd] at hc; simpa using hc
  · intro c hc
    rw [List.getLast?_reverse] at hc
    have := List.head?_dropWhile_not isSpace u.reverse
    rw [hc] at this
    simpa using this

theorem blank_of_strip {t : Text} (h : stripBy isSpace t = []) : ∀ c ∈ t, isSpace c = true := by
  obtain ⟨⟨a, b, e, ha, hb⟩, -⟩ := h ▸ strip_is_trimmed t
  rw [e]
  intro c hc
  simp only [List.append_nil, List.mem_append] at hc
  exact hc.elim (ha c) (hb c)

theorem dimOf_units {kind : Text} {i : Nat} {p : WAxis × Nat} : UnitsOf p.1 (dimOf kind i p).units := by
  unfold dimOf textOr
  cases hu : p.1.units with
  | none => exact .inr ⟨.inl hu, rfl⟩
  | some t =>
    dsimp only
    split
    · rename_i h
      exact .inr ⟨.inr ⟨t, hu, blank_of_strip h⟩, rfl⟩
    · rename_i h
      exact .inl ⟨t, hu, h, strip_is_trimmed t⟩

/-- Dimensions of the file for axes with their names. -/
def Stands (p : (WAxis × Nat) × Text) (d : Dim) : Prop :=
  d.name = p.2 ∧ UnitsOf p.1.1 d.units ∧ d.values = (List.range p.1.2).map fun k : Nat => (k : ℚ) * p.1.1.scale + p.1.1.offset

theorem slowDims_stands {kind : Text} : ∀ {l : List (WAxis × Nat)} {ns : List Text}, Named kind l ns →
    List.Forall₂ Stands (l.zip ns) (slowDims kind l)
  | [], [], _ => .nil
  | [], _ :: _, h => by simp [Named] at h
  | (_, _) :: _, [], h => by simp [Named] at h
  | (a, k) :: l, n :: ns, h => by
    unfold Named at h
    exact .cons ⟨dimOf_name h.1, dimOf_units, rfl⟩ (slowDims_stands h.2)

theorem named_length {kind : Text} : ∀ {l : List (WAxis × Nat)} {ns : List Text}, Named kind l ns → l.length = ns.length
  | [], [], _ => rfl
  | [], _ :: _, h => by simp [Named] at h
  | (_, _) :: _, [], h => by simp [Named] at h
  | (a, k) :: l, n :: ns, h => by
    unfold Named at h
    simp [named_length h.2]

theorem slowDims_names {kind : Text} {l : List (WAxis × Nat)} {ns : List Text} (h : Named kind l ns) : (slowDims kind l).map (·.name) = ns := by
  have hf := slowDims_stands h
  have hz : (l.zip ns).map Prod.snd = ns := by
    rw [List.map_snd_zip]
    exact (named_length h).ge
  have : ∀ {a : List ((WAxis × Nat) × Text)} {b : List Dim}, List.Forall₂ Stands a b → b.map (·.name) = a.map Prod.snd := by
    intro a b h
    induction h with
    | nil => rfl
    | cons h _ ih => simp [ih, h.1]
  rw [this hf, hz]

/-! ### The file -/

theorem uniform_values (n : Nat) (s o : ℚ) : Uniform s ((List.range n).map fun k : Nat => (k : ℚ) * s + o) := by
  refine ⟨o, fun i v h => ?_⟩
  rw [List.getElem?_map] at h
  cases hr : (List.range n)[i]? with
  | none => rw [hr] at h; cases h
  | some j =>
    rw [List.getElem?_eq_some_iff] at hr
    obtain ⟨hl, hr⟩ := hr
    rw [List.getElem_range] at hr
    subst hr
    rw [List.getElem?_eq_getElem hl, List.getElem_range] at h
    simp only [Option.map_some, Option.some.injEq] at h
    rw [← h]
    ring

theorem stands_shows {env : Env} (hs : SlopeOk env) {p : (WAxis × Nat) × Text} {d : Dim} (h : Stands p d) (h0 : p.1.2 ≠ 0) (h1 : p.1.2 ≠ 1) :
    ShowsAxis p (axisOf env d) := by
  obtain ⟨e1, e2, e3⟩ := h
  have hl : d.values.length = p.1.2 := by rw [e3]; simp
  have hsl : env.slope d.values = .ok p.1.1.scale := by
    apply hs.1 _ _ (by omega)
    rw [e3]
    exact uniform_values ..
  have hh : d.values.headD 0 = p.1.1.offset := by
    rw [e3]
    cases hp : p.1.2 with
    | zero => exact absurd hp h0
    | succ n => simp [List.range_succ_eq_map]
  unfold axisOf
  rw [hsl]
  exact ⟨e1, e2, hl, rfl, hh⟩

theorem stands_filter {env : Env} (hs : SlopeOk env) : ∀ {ps : List ((WAxis × Nat) × Text)} {ds : List Dim}, List.Forall₂ Stands ps ds →
    (∀ p ∈ ps, p.1.2 ≠ 0) → List.Forall₂ ShowsAxis (ps.filter fun p => p.1.2 ≠ 1) ((ds.filter fun d => d.values.length ≠ 1).map (axisOf env))
  | [], [], _, _ => .nil
  | p :: ps, d :: ds, .cons h t, h0 => by
    have ih := stands_filter hs t fun q hq => h0 q (List.mem_cons_of_mem _ hq)
    have hl : d.values.length = p.1.2 := by rw [h.2.2]; simp
    rw [List.filter_cons, List.filter_cons, hl]
    by_cases h1 : p.1.2 = 1
    · simpa [h1] using ih
    · simp only [ne_eq, h1, not_false_eq_true, decide_true, if_true, List.map_cons]
      exact .cons (stands_shows hs h (h0 p (List.mem_cons_self ..)) h1) ih

theorem store_table {env : Env} (ha : ∀ l, (env.arrange l).Perm l) {l : List Dim} (hn : (l.map (·.name)).Nodup) : Table (store env l) l where
  order := ⟨env.arrange l, ha l, rfl, rfl⟩
  names := hn
  values := by
    intro d hd
    have hm : ∀ e, e ∈ env.arrange l ↔ e ∈ l := fun e => (ha l).mem_iff
    refine ⟨List.mem_map.2 ⟨d, (hm d).2 hd, rfl⟩, ?_⟩
    intro v hv
    obtain ⟨e, he, heq⟩ := List.mem_map.1 hv
    injection heq with e1 e2
    have : e = d := List.inj_on_of_nodup_map hn ((hm e).1 he) hd e1
    rw [← e2, this]

theorem written_names {kind : Text} {l : List (WAxis × Nat)} {ns : List Text} (h : Named kind l ns) (hn : ns.Nodup) :
    ((written kind l).map (·.name)).Nodup := by
  unfold written
  split
  · simp
  · rw [slowDims_names h]; exact hn

theorem written_filled {kind : Text} {l : List (WAxis × Nat)} (h : ∀ p ∈ l, p.2 ≠ 0) : ∀ d ∈ written kind l, d.values ≠ [] := by
  unfold written
  split
  · simp
  · intro d hd e
    have hm : d.values.length ∈ (slowDims kind l).map (·.values.length) := List.mem_map_of_mem (f := fun d : Dim => d.values.length) hd
    rw [slowDims_lengths, e] at hm
    obtain ⟨p, hp, he⟩ := List.mem_map.1 hm
    exact h p hp (by simpa using he)

theorem written_axes {env : Env} (hs : SlopeOk env) {kind : Text} {l : List (WAxis × Nat)} {ns : List Text} (h : Named kind l ns)
    (h0 : ∀ p ∈ l, p.2 ≠ 0) : List.Forall₂ ShowsAxis ((l.zip ns).filter fun p => p.1.2 ≠ 1)
      (((written kind l).filter fun d => d.values.length ≠ 1).map (axisOf env)) := by
  unfold written
  split
  · rename_i e
    subst e
    simp
  · apply stands_filter hs (slowDims_stands h)
    intro p hp
    exact h0 p.1 (List.of_mem_zip hp).1

theorem written_shape {kind : Text} {l : List (WAxis × Nat)} :
    ((written kind l).map (·.values.length)).filter (· ≠ 1) = (l.map Prod.snd).filter (· ≠ 1) := by
  unfold written
  split
  · rename_i e; subst e; rfl
  · rw [slowDims_lengths]

theorem written_slopes {env : Env} (hs : SlopeOk env) {kind : Text} {l : List (WAxis × Nat)} {ns : List Text} (h : Named kind l ns)
    (h0 : ∀ p ∈ l, p.2 ≠ 0) : ∀ d ∈ written kind l, d.values.length = 1 ∨ ∃ s, env.slope d.values = .ok s := by
  unfold written
  split
  · simp
  · intro d hd
    have hm : ∀ {ps : List ((WAxis × Nat) × Text)} {ds : List Dim}, List.Forall₂ Stands ps ds → d ∈ ds → ∃ p ∈ ps, Stands p d := by
      intro ps ds hf
      induction hf with
      | nil => simp
      | cons h _ ih =>
        intro hd
        rcases List.mem_cons.1 hd with e | e
        · subst e; exact ⟨_, List.mem_cons_self .., h⟩
        · obtain ⟨p, hp, hp'⟩ := ih e
          exact ⟨p, List.mem_cons_of_mem _ hp, hp'⟩
    obtain ⟨p, hp, hst⟩ := hm (slowDims_stands h) hd
    have hl : d.values.length = p.1.2 := by rw [hst.2.2]; simp
    have := h0 p.1 (List.of_mem_zip hp).1
    by_cases h1 : p.1.2 = 1
    · exact .inl (by omega)
    · refine .inr ⟨p.1.1.scale, hs.1 _ _ (by omega) ?_⟩
      rw [hst.2.2]
      exact uniform_values ..

/-- The new dataset. -/
def newMain (env : Env) (n : Nat) (s : WSig) (nav sig : List (WAxis × Nat)) : Main :=
  ⟨newPath n, env.stamp, parameters s, store env (written "Pos".toList nav), store env (written "Spec".toList sig), true,
    (written "Pos".toList nav ++ written "Spec".toList sig).map (·.name),
    (written "Pos".toList nav ++ written "Spec".toList sig).map (·.values.length), .plain s.data, "Unknown Quantity (Unknown Units)".toList⟩

theorem writer_eq {env : Env} {name : Text} {old : Option File} {s : WSig} {nav sig : List (WAxis × Nat)} (hw : Writable s nav sig) :
    fileWriter env name old s = .ok { old.getD ⟨name, [], []⟩ with
      mains := (old.getD ⟨name, [], []⟩).mains ++ [newMain env (old.getD ⟨name, [], []⟩).mains.length s nav sig] } := by
  unfold fileWriter
  rw [layout_ok hw]
  simp only [bind, Except.bind, pure, Except.pure, total_written]
  rw [if_neg (by simp)]
  rfl

theorem newMain_legible {env : Env} (ha : ∀ l, (env.arrange l).Perm l) {n : Nat} {s : WSig} {nav sig : List (WAxis × Nat)}
    (hw : Writable s nav sig) {ns ms : List Text} (hns : Named "Pos".toList nav ns) (hms : Named "Spec".toList sig ms)
    (h1 : ns.Nodup) (h2 : ms.Nodup) :
    Legible (newMain env n s nav sig) (written "Pos".toList nav) (written "Spec".toList sig) where
  posTable := store_table ha (written_names hns h1)
  specTable := store_table ha (written_names hms h2)
  labels := List.map_append
  shape := List.map_append
  filled := by
    intro d hd
    rcases List.mem_append.1 hd with h | h
    · exact written_filled (fun p hp => hw.lengths p (List.mem_append_left _ hp)) d h
    · exact written_filled (fun p hp => hw.lengths p (List.mem_append_right _ hp)) d h
  reshaped := rfl

theorem newPath_last (n : Nat) : lastPart (newPath n) = "Raw_Data".toList := by
  obtain ⟨l, _, e⟩ := splitChar_last (c := '/') (b := "Raw_Data".toList) (by decide +kernel) ("/Measurement_".toList ++ pad3 n ++ "/Channel_000".toList)
  have h : "/Channel_000/Raw_Data".toList = "/Channel_000".toList ++ '/' :: "Raw_Data".toList := by decide +kernel
  unfold lastPart newPath
  rw [h, ← List.append_assoc, e, List.getLastD_eq_getLast?, List.getLast?_concat]
  rfl

/-- **C117 (round trip).** A signal whose navigation axes come first, without empty axes and without repeated names, is written to a new
file, or added to an existing one; then reading gives what was there before and one more signal, with the same numbers, and the axes of
more than one value with their names, units, scales, offsets and lengths. -/
theorem C117_roundtrip_partial {env : Env} (hs : SlopeOk env) (ha : ∀ l, (env.arrange l).Perm l) {ignore : Bool} {name : Text} {old : Option File}
    {s : WSig} {nav sig : List (WAxis × Nat)} (hw : Writable s nav sig) {ns ms : List Text} (hns : Named "Pos".toList nav ns)
    (hms : Named "Spec".toList sig ms) (h1 : ns.Nodup) (h2 : ms.Nodup) {before : List Sig}
    (hb : match old with | none => before = [] | some f => f.name = name ∧ fileReader env ignore none f = .ok before) :
    ∃ g r, fileWriter env name old s = .ok g ∧ fileReader env ignore none g = .ok (before ++ [r]) ∧
      r.data = s.data ∧ r.shape = s.shape.filter (· ≠ 1) ∧
      List.Forall₂ ShowsAxis ((nav.zip ns ++ sig.zip ms).filter fun p => p.1.2 ≠ 1) r.axes ∧
      r.title = "Raw_Data".toList ∧ r.filename = name ∧ r.quantity = "Unknown Quantity".toList ∧ r.units = "Unknown Units".toList := by
  have hwr := writer_eq (env := env) (name := name) (old := old) hw
  generalize (old.getD ⟨name, [], []⟩).mains.length = n at hwr
  have hleg := newMain_legible (n := n) ha hw hns hms h1 h2
  have hslopes : ignore = true ∨ ∀ d ∈ written "Pos".toList nav ++ written "Spec".toList sig, d.values.length = 1 ∨ ∃ s, env.slope d.values = .ok s := by
    refine .inr fun d hd => ?_
    rcases List.mem_append.1 hd with h | h
    · exact written_slopes hs hns (fun p hp => hw.lengths p (List.mem_append_left _ hp)) d h
    · exact written_slopes hs hms (fun p hp => hw.lengths p (List.mem_append_right _ hp)) d h
  have hdesc : splitDescriptor "Unknown Quantity (Unknown Units)".toList = ("Unknown Quantity".toList, "Unknown Units".toList) := by decide +kernel
  have hnew : ∀ f, mainToSignals env ignore f (newMain env n s nav sig) = .ok [toSignal f (newMain env n s nav sig)
      (((written "Pos".toList nav ++ written "Spec".toList sig).filter fun d => d.values.length ≠ 1).map (axisOf env)) s.data
      "Unknown Quantity".toList "Unknown Units".toList []] := by
    intro f
    rw [main_eq hs hleg hslopes]
    simp only [newMain, hdesc]
  have hcat : ∀ (f : File) (l : List Sig), f.mains.mapM (mainToSignals env ignore f) >>= (fun x => pure x.flatten) = .ok l →
      fileReader env ignore none { f with mains := f.mains ++ [newMain env n s nav sig] } =
        .ok (l ++ [toSignal f (newMain env n s nav sig)
      (((written "Pos".toList nav ++ written "Spec".toList sig).filter fun d => d.values.length ≠ 1).map (axisOf env)) s.data
      "Unknown Quantity".toList "Unknown Units".toList []]) := by
    intro f l hl
    simp only [fileReader, List.mapM_append, List.mapM_cons, List.mapM_nil]
    have hsame : mainToSignals env ignore { f with mains := f.mains ++ [newMain env n s nav sig] } = mainToSignals env ignore f := rfl
    rw [hsame, hnew]
    cases hm : f.mains.mapM (mainToSignals env ignore f) with
    | error e => rw [hm] at hl; cases hl
    | ok ls =>
      rw [hm] at hl
      simp only [bind, Except.bind, pure, Except.pure, Except.ok.injEq] at hl ⊢
      rw [← hl]
      simp
  have hname : (old.getD ⟨name, [], []⟩).name = name := by
    cases old with
    | none => rfl
    | some f => exact hb.1
  have hbefore : (old.getD ⟨name, [], []⟩).mains.mapM (mainToSignals env ignore (old.getD ⟨name, [], []⟩)) >>= (fun x => pure x.flatten) = .ok before := by
    cases old with
    | none => dsimp only at hb; rw [hb]; rfl
    | some f => exact hb.2
  refine ⟨_, _, hwr, hcat _ _ hbefore, rfl, ?_, ?_, ?_, hname, rfl, rfl⟩
  · simp only [toSignal, newMain, List.map_append, List.filter_append, written_shape, hw.shape]
  · simp only [toSignal, List.filter_append, List.map_append]
    exact List.rel_append (written_axes hs hns fun p hp => hw.lengths p (List.mem_append_left _ hp))
      (written_axes hs hms fun p hp => hw.lengths p (List.mem_append_right _ hp))
  · exact newPath_last n

end Verif.Props.Usid
