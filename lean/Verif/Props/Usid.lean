import Verif.Spec.Usid
import Verif.Props.JobinYvon
import Verif.Props.EmdNcem
/-! USID files: C116 (reading). -/
namespace Verif.Props.Usid
open Verif Verif.Usid

/-! ### Dimensions -/

/-- The axis of a dimension with several values. -/
def axisOf (env : Env) (d : Dim) : Axis :=
  match env.slope d.values with
  | .ok s => ⟨d.values.length, d.name, d.units, s, d.values.headD 0⟩
  | .error _ => ⟨d.values.length, d.name, d.units, 1, 0⟩

theorem stepOf_ok {env : Env} (hs : SlopeOk env) {ignore : Bool} {d : Dim} (h1 : d.values ≠ []) (h2 : d.values.length ≠ 1)
    (h : ignore = true ∨ ∃ s, env.slope d.values = .ok s) :
    stepOf env ignore d.values = .ok ((axisOf env d).scale, (axisOf env d).offset) := by
  have hl : 2 ≤ d.values.length := by
    have := List.length_pos_of_ne_nil h1
    omega
  unfold axisOf stepOf
  cases hv : d.values with
  | nil => exact absurd hv h1
  | cons v vs =>
    cases he : env.slope (v :: vs) with
    | ok s => rfl
    | error e =>
      have := hs.2 d.values e (by rw [hv, he]) hl
      subst this
      rcases h with h | ⟨s, h⟩
      · simp [h]
      · rw [hv, he] at h; cases h

theorem showsDim {env : Env} (hs : SlopeOk env) {d : Dim} (h1 : d.values ≠ []) (h2 : d.values.length ≠ 1) :
    ShowsDim env d (axisOf env d) := by
  have hl : 2 ≤ d.values.length := by
    have := List.length_pos_of_ne_nil h1
    omega
  constructor
  · unfold axisOf; split <;> rfl
  · unfold axisOf; split <;> rfl
  · unfold axisOf; split <;> rfl
  · intro step hu i v hv
    have hstep := hs.1 _ _ hl hu
    unfold axisOf
    rw [hstep]
    obtain ⟨start, hst⟩ := hu
    have h0 : d.values.headD 0 = start := by
      cases hd : d.values with
      | nil => exact absurd hd h1
      | cons w ws =>
        have := hst 0 w (by rw [hd]; rfl)
        simpa using this
    simp only [h0]
    exact hst i v hv
  · intro e he
    unfold axisOf
    rw [he]
    exact ⟨rfl, rfl⟩
  · intro s he
    unfold axisOf
    rw [he]
    refine ⟨rfl, ?_⟩
    cases hd : d.values with
    | nil => exact absurd hd h1
    | cons w ws => rfl

theorem dimDict_ok {env : Env} (hs : SlopeOk env) {ignore : Bool} {t : Dims} : ∀ {l : List Dim} {acc : List (Text × Axis)},
    (∀ d ∈ l, d.values ≠ [] ∧ getKw d.name t.values = some d.values ∧
      (ignore = true ∨ d.values.length = 1 ∨ ∃ s, env.slope d.values = .ok s)) →
    (l.map (·.name)).Nodup → (∀ d ∈ l, d.name ∉ acc.map Prod.fst) →
    dimDict env ignore t ((l.map (·.name)).zip (l.map (·.units))) acc =
      .ok (acc ++ (l.filter fun d => d.values.length ≠ 1).map fun d => (d.name, axisOf env d))
  | [], acc, _, _, _ => by simp [dimDict]
  | d :: l, acc, h, hn, ha => by
    obtain ⟨h1, h2, h3⟩ := h d (List.mem_cons_self ..)
    have hl := fun e he => h e (List.mem_cons_of_mem _ he)
    rw [List.map_cons, List.nodup_cons] at hn
    simp only [List.map_cons, List.zip_cons_cons, dimDict, getValues, h2, bind, Except.bind]
    by_cases hlen : d.values.length = 1
    · rw [if_pos hlen, dimDict_ok hs hl hn.2 fun e he => ha e (List.mem_cons_of_mem _ he)]
      simp [hlen]
    · rw [if_neg hlen, stepOf_ok hs h1 hlen (by tauto)]
      dsimp only
      rw [setKw_new (ha d (List.mem_cons_self ..)), dimDict_ok hs hl hn.2]
      · have : axisOf env d = ⟨d.values.length, d.name, d.units, (axisOf env d).scale, (axisOf env d).offset⟩ := by
          unfold axisOf; split <;> rfl
        simp [hlen, ← this]
      · intro e he
        rw [List.map_append, List.mem_append, not_or]
        refine ⟨ha e (List.mem_cons_of_mem _ he), ?_⟩
        simp only [List.map_cons, List.map_nil, List.mem_singleton]
        intro e'
        exact hn.1 (e' ▸ List.mem_map_of_mem he)

theorem getKw_nodup {α : Type} {k : Text} {v : α} : ∀ {d : List (Text × α)}, (d.map Prod.fst).Nodup → (k, v) ∈ d → getKw k d = some v
  | (k', v') :: d, hn, hm => by
    rw [List.map_cons, List.nodup_cons] at hn
    rcases List.mem_cons.1 hm with e | e
    · injection e with e1 e2
      subst e1; subst e2
      simp [getKw]
    · have : k' ≠ k := fun e' => hn.1 (List.mem_map.2 ⟨_, e, e'.symm⟩)
      simp only [getKw]
      rw [if_neg (by simpa using this)]
      exact getKw_nodup hn.2 e

theorem getKw_unique {α : Type} {k : Text} {v : α} : ∀ {d : List (Text × α)}, (k, v) ∈ d → (∀ w, (k, w) ∈ d → w = v) → getKw k d = some v
  | (k', v') :: d, hm, hu => by
    simp only [getKw]
    split
    · rename_i h
      subst h
      rw [hu v' (List.mem_cons_self ..)]
    · rename_i h
      refine getKw_unique ?_ fun w hw => hu w (List.mem_cons_of_mem _ hw)
      rcases List.mem_cons.1 hm with e | e
      · injection e with e1 e2
        exact absurd e1.symm h
      · exact e

theorem assemble_ok {env : Env} {l : List Dim} : ∀ {dims : List Dim}, (∀ d ∈ dims, d ∈ l) → (l.map (·.name)).Nodup →
    assemble ((l.filter fun d => d.values.length ≠ 1).map fun d => (d.name, axisOf env d)) (dims.map (·.name)) =
      (dims.filter fun d => d.values.length ≠ 1).map (axisOf env)
  | [], _, _ => rfl
  | d :: dims, hm, hn => by
    have ih := assemble_ok (env := env) (fun e he => hm e (List.mem_cons_of_mem _ he)) hn
    unfold assemble at ih ⊢
    have hd := hm d (List.mem_cons_self ..)
    have hk : ((l.filter fun d => d.values.length ≠ 1).map fun d => (d.name, axisOf env d)).map Prod.fst =
        (l.filter fun d => d.values.length ≠ 1).map (·.name) := by simp
    have hn' : (((l.filter fun d => d.values.length ≠ 1).map fun d => (d.name, axisOf env d)).map Prod.fst).Nodup := by
      rw [hk]
      exact hn.sublist (List.filter_sublist.map _)
    rw [List.map_cons, List.filterMap_cons]
    by_cases h1 : d.values.length = 1
    · have : getKw d.name ((l.filter fun d => d.values.length ≠ 1).map fun d => (d.name, axisOf env d)) = none := by
        apply getKw_none
        rw [hk]
        intro hc
        obtain ⟨e, he, he'⟩ := List.mem_map.1 hc
        rw [List.mem_filter] at he
        have : e = d := List.inj_on_of_nodup_map hn he.1 hd he'
        subst this
        simp [h1] at he
      rw [this, ih]
      simp [h1]
    · have : getKw d.name ((l.filter fun d => d.values.length ≠ 1).map fun d => (d.name, axisOf env d)) = some (axisOf env d) := by
        apply getKw_nodup hn'
        exact List.mem_map.2 ⟨d, List.mem_filter.2 ⟨hd, by simpa using h1⟩, rfl⟩
      rw [this, ih]
      simp [h1]

theorem table_dict {env : Env} (hs : SlopeOk env) {ignore : Bool} {t : Dims} {dims : List Dim} (ht : Table t dims)
    (hf : ∀ d ∈ dims, d.values ≠ []) (hu : ignore = true ∨ ∀ d ∈ dims, d.values.length = 1 ∨ ∃ s, env.slope d.values = .ok s) :
    t.labels.length = dims.length ∧ ∃ D, getDimDict env ignore t = .ok D ∧
      assemble D (dims.map (·.name)) = (dims.filter fun d => d.values.length ≠ 1).map (axisOf env) := by
  obtain ⟨l, hp, h1, h2⟩ := ht.order
  have hn : (l.map (·.name)).Nodup := (hp.map _).nodup_iff.2 ht.names
  refine ⟨by rw [h1, List.length_map, hp.length_eq], _, ?_, assemble_ok (fun d hd => hp.mem_iff.2 hd) hn⟩
  unfold getDimDict
  rw [h1, h2, dimDict_ok hs _ hn (by simp), List.nil_append]
  intro d hd
  have hd' := hp.mem_iff.1 hd
  refine ⟨hf d hd', getKw_unique (ht.values d hd').1 (ht.values d hd').2, ?_⟩
  rcases hu with h | h
  · exact .inl h
  · exact .inr (h d hd')

/-! ### Descriptors and names -/

theorem strip_trimmed {s t : Text} (h : Trimmed s t) : stripBy isSpace t = s := by
  obtain ⟨⟨a, b, rfl, ha, hb⟩, h1, h2⟩ := h
  rw [stripBy_append hb]
  unfold stripBy
  have : lstripBy isSpace (a ++ s) = s := by
    unfold lstripBy
    rw [List.dropWhile_append, dropWhile_all ha]
    simpa [lstripBy] using lstripBy_id h1
  rw [this, rstripBy_id h2]

theorem rfindSplit_last {c : Char} {a b : Text} (h : c ∉ b) : rfindSplit c (a ++ c :: b) = some (a, c :: b) := by
  have : ((a ++ c :: b).reverse.takeWhile (· ≠ c)).reverse = b := by
    rw [List.reverse_append, List.reverse_cons, List.append_assoc, List.takeWhile_append_of_pos]
    · simp
    · intro x hx
      have : x ≠ c := fun e => h (by simpa [e] using hx)
      simpa using this
  unfold rfindSplit
  rw [if_pos (by simp), this]
  simp only [List.length_append, List.length_cons]
  rw [show a.length + (b.length + 1) - b.length - 1 = a.length by omega, List.take_left]

theorem descriptor_ok {d q u : Text} (h : Descriptor d q u) : splitDescriptor d = (q, u) := by
  have hp : ∀ {u : Text}, Plain u → u.filter (fun c => c ∉ ['(', ')', '[', ']']) = u := by
    intro u ⟨h1, h2, h3, h4⟩
    rw [List.filter_eq_self]
    intro c hc
    simp only [List.mem_cons, List.not_mem_nil, or_false, decide_not, Bool.not_eq_true', decide_eq_false_iff_not]
    rintro (e | e | e | e) <;> subst e <;> contradiction
  unfold splitDescriptor
  cases h with
  | @round _ _ _ q' h1 h2 h3 =>
    rw [strip_trimmed h3]
    dsimp only
    rw [show q' ++ '(' :: u ++ [')'] = q' ++ '(' :: (u ++ [')']) by simp, rfindSplit_last (by simpa using h2.1)]
    simp only [Option.or]
    rw [strip_trimmed h1]
    have := hp h2
    simp only [List.filter_cons, List.filter_append, this]
    simp
  | @square _ _ _ q' h1 h2 h4 h3 =>
    rw [strip_trimmed h3]
    dsimp only
    have hq' : '(' ∉ q' := by
      obtain ⟨⟨a, b, rfl, ha, hb⟩, _, _⟩ := h1
      simp only [List.mem_append, not_or]
      exact ⟨⟨fun h => by simpa [isSpace] using ha _ h, h4⟩, fun h => by simpa [isSpace] using hb _ h⟩
    have hno : rfindSplit '(' (q' ++ '[' :: u ++ [']']) = none := by
      unfold rfindSplit
      rw [if_neg]
      simp [hq', h2.1]
    rw [hno, show q' ++ '[' :: u ++ [']'] = q' ++ '[' :: (u ++ [']']) by simp, rfindSplit_last (by simpa using h2.2.2.1)]
    simp only [Option.or]
    rw [strip_trimmed h1]
    have := hp h2
    simp only [List.filter_cons, List.filter_append, this]
    simp
  | bare h1 h2 h3 =>
    rw [strip_trimmed h1]
    dsimp only
    unfold rfindSplit
    rw [if_neg h2, if_neg h3]
    rfl

theorem splitChar_last {c : Char} {b : Text} (hb : c ∉ b) : ∀ a : Text, ∃ l, l ≠ [] ∧ splitChar c (a ++ c :: b) = l ++ [b]
  | [] => ⟨[[]], by simp, by simp [splitChar, splitChar_none hb]⟩
  | x :: a => by
    obtain ⟨l, h1, h2⟩ := splitChar_last hb a
    rw [List.cons_append, splitChar, h2]
    split
    · exact ⟨[] :: l, by simp, rfl⟩
    · cases l with
      | nil => exact absurd rfl h1
      | cons p l => exact ⟨(x :: p) :: l, by simp, rfl⟩

theorem last_mem {c : Char} : ∀ {t : Text}, c ∈ t → ∃ a b, t = a ++ c :: b ∧ c ∉ b
  | x :: t, h => by
    by_cases ht : c ∈ t
    · obtain ⟨a, b, e, hb⟩ := last_mem ht
      exact ⟨x :: a, b, by rw [e]; rfl, hb⟩
    · rcases List.mem_cons.1 h with e | e
      · exact ⟨[], t, by rw [e]; rfl, ht⟩
      · exact absurd e ht

theorem lastPart_ends (t : Text) : Ends t (lastPart t) := by
  unfold lastPart
  by_cases h : '/' ∈ t
  · obtain ⟨a, b, rfl, hb⟩ := last_mem h
    obtain ⟨l, _, e⟩ := splitChar_last hb a
    rw [e]
    simp only [List.getLastD_eq_getLast?, List.getLast?_concat, Option.getD_some]
    exact ⟨hb, .inr ⟨a, rfl⟩⟩
  · rw [splitChar_none h]
    exact ⟨h, .inl rfl⟩

/-! ### Reading -/

theorem showsData {env : Env} (hs : SlopeOk env) {f : File} {m : Main} {pos spec : List Dim} (hl : Legible m pos spec)
    {data : List ℚ} {q u k : Text} : ShowsData env f m (pos ++ spec) data
      (toSignal f m (((pos ++ spec).filter fun d => d.values.length ≠ 1).map (axisOf env)) data q u k) where
  axes := by
    simp only [toSignal]
    rw [List.forall₂_map_right_iff, List.forall₂_same]
    intro d hd
    rw [List.mem_filter] at hd
    exact showsDim hs (hl.filled d hd.1) (by simpa using hd.2)
  shape := by
    have : ∀ d, (axisOf env d).size = d.values.length := by intro d; unfold axisOf; split <;> rfl
    simp only [toSignal, hl.shape, List.map_map, Function.comp_def, this]
    rw [← List.map_append, List.filter_map]
    rfl
  data := fun idx hi => by simp only [toSignal]; rw [flatIndex_squeeze hi]
  count := rfl
  filename := rfl
  path := rfl
  title := lastPart_ends _

theorem main_eq {env : Env} (hs : SlopeOk env) {ignore : Bool} {f : File} {m : Main} {pos spec : List Dim} (hl : Legible m pos spec)
    (hu : ignore = true ∨ ∀ d ∈ pos ++ spec, d.values.length = 1 ∨ ∃ s, env.slope d.values = .ok s) :
    mainToSignals env ignore f m =
      let axes := ((pos ++ spec).filter fun d => d.values.length ≠ 1).map (axisOf env)
      match m.data with
      | .compound parts => .ok (parts.map fun p =>
          toSignal f m axes p.2 (splitDescriptor p.1).1 (splitDescriptor p.1).2 (splitDescriptor m.descriptor).1)
      | .plain l => .ok [toSignal f m axes l (splitDescriptor m.descriptor).1 (splitDescriptor m.descriptor).2 []] := by
  obtain ⟨n1, D1, e1, a1⟩ := table_dict (ignore := ignore) hs hl.posTable (fun d hd => hl.filled d (List.mem_append_left _ hd))
    (hu.imp id fun h d hd => h d (List.mem_append_left _ hd))
  obtain ⟨n2, D2, e2, a2⟩ := table_dict (ignore := ignore) hs hl.specTable (fun d hd => hl.filled d (List.mem_append_right _ hd))
    (hu.imp id fun h d hd => h d (List.mem_append_right _ hd))
  have ht : m.labels.take m.pos.labels.length = pos.map (·.name) := by rw [hl.labels, n1]; simp
  have hd : m.labels.drop m.pos.labels.length = spec.map (·.name) := by rw [hl.labels, n1]; simp
  unfold mainToSignals
  simp only [e1, e2, bind, Except.bind, hl.reshaped, Bool.not_true, Bool.false_eq_true, if_false, ht, hd, a1, a2]
  rw [← List.map_append, ← List.filter_append]
  cases m.data <;> rfl

theorem main_ok {env : Env} (hs : SlopeOk env) {ignore : Bool} {f : File} {m : Main} {pos spec : List Dim} (hl : Legible m pos spec)
    (hu : ignore = true ∨ ∀ d ∈ pos ++ spec, d.values.length = 1 ∨ ∃ s, env.slope d.values = .ok s) :
    ∃ l, mainToSignals env ignore f m = .ok l ∧ ShowsMain env f m (pos ++ spec) l := by
  rw [main_eq hs hl hu]
  unfold ShowsMain
  cases m.data with
  | plain data =>
    exact ⟨_, rfl, _, rfl, showsData hs hl, rfl, fun q u h => by rw [descriptor_ok h]; exact ⟨rfl, rfl⟩⟩
  | compound parts =>
    refine ⟨_, rfl, ?_⟩
    dsimp only
    rw [List.forall₂_map_right_iff, List.forall₂_same]
    exact fun p _ => ⟨showsData hs hl, fun q u h => by rw [descriptor_ok h]; exact ⟨rfl, rfl⟩,
      fun q u h => by rw [descriptor_ok h]; rfl⟩

/-- All main datasets of the file are legible, with the given dimensions. -/
def LegibleFile (f : File) (dims : List (List Dim × List Dim)) : Prop :=
  List.Forall₂ (fun m d => Legible m d.1 d.2) f.mains dims

/-- **C116 (reading all).** From a file whose main datasets are legible come, in order, the signals of all of them, when dimensions that
are not uniform are ignored or there are none. -/
theorem C116_file_partial {env : Env} (hs : SlopeOk env) {ignore : Bool} {f : File} {dims : List (List Dim × List Dim)} (hl : LegibleFile f dims)
    (hu : ignore = true ∨ ∀ p ∈ dims, ∀ d ∈ p.1 ++ p.2, d.values.length = 1 ∨ ∃ s, env.slope d.values = .ok s) :
    ∃ ls : List (List Sig), fileReader env ignore none f = .ok ls.flatten ∧ ls.length = f.mains.length ∧
      ∀ (i : Nat) (m : Main) (p : List Dim × List Dim) (l : List Sig), f.mains[i]? = some m → dims[i]? = some p → ls[i]? = some l → ShowsMain env f m (p.1 ++ p.2) l := by
  unfold LegibleFile at hl
  suffices h : ∀ {ms : List Main} {dims : List (List Dim × List Dim)}, List.Forall₂ (fun m d => Legible m d.1 d.2) ms dims →
      (ignore = true ∨ ∀ p ∈ dims, ∀ d ∈ p.1 ++ p.2, d.values.length = 1 ∨ ∃ s, env.slope d.values = .ok s) →
      ∃ ls : List (List Sig), ms.mapM (mainToSignals env ignore f) = .ok ls ∧ ls.length = ms.length ∧
      ∀ (i : Nat) (m : Main) (p : List Dim × List Dim) (l : List Sig), ms[i]? = some m → dims[i]? = some p → ls[i]? = some l → ShowsMain env f m (p.1 ++ p.2) l by
    obtain ⟨ls, h1, h2, h3⟩ := h hl hu
    refine ⟨ls, ?_, h2, h3⟩
    simp only [fileReader, h1, bind, Except.bind, pure, Except.pure]
  intro ms dims hl
  induction hl with
  | nil => exact fun _ => ⟨[], rfl, rfl, by simp⟩
  | @cons m p ms dims hm _ ih =>
    intro hu
    obtain ⟨l, h1, h2⟩ := main_ok (f := f) hs hm (hu.imp id fun h => h p (List.mem_cons_self ..))
    obtain ⟨ls, h3, h4, h5⟩ := ih (hu.imp id fun h q hq => h q (List.mem_cons_of_mem _ hq))
    refine ⟨l :: ls, ?_, by simp [h4], ?_⟩
    · rw [List.mapM_cons, h1]
      simp only [bind, Except.bind, h3, pure, Except.pure]
    · rintro (_ | i) m' p' l' hm' hp' hl'
      · simp only [List.getElem?_cons_zero, Option.some.injEq] at hm' hp' hl'
        subst hm'; subst hp'; subst hl'
        exact h2
      · simp only [List.getElem?_cons_succ] at hm' hp' hl'
        exact h5 i m' p' l' hm' hp' hl'

/-- **C116 (one dataset).** With the path of a main dataset come its signals only. -/
theorem C116_path {env : Env} (hs : SlopeOk env) {ignore : Bool} {f : File} {m : Main} {pos spec : List Dim} (hm : m ∈ f.mains)
    (h1 : ∀ m' ∈ f.mains, m'.path = m.path → m' = m) (hl : Legible m pos spec)
    (hu : ignore = true ∨ ∀ d ∈ pos ++ spec, d.values.length = 1 ∨ ∃ s, env.slope d.values = .ok s) :
    ∃ l, fileReader env ignore (some m.path) f = .ok l ∧ ShowsMain env f m (pos ++ spec) l := by
  obtain ⟨l, e, h⟩ := main_ok (f := f) hs hl hu
  refine ⟨l, ?_, h⟩
  unfold fileReader
  cases hf : f.mains.find? (·.path = m.path) with
  | none =>
    rw [List.find?_eq_none] at hf
    exact absurd (hf m hm) (by simp)
  | some m' =>
    have := h1 m' (List.mem_of_find?_eq_some hf) (by simpa using List.find?_some hf)
    subst this
    simpa only [hf] using e

/-- **C116 (other paths).** A path of something else is an error: `TypeError` if it exists, else `KeyError`. -/
theorem C116_rejects_path {env : Env} {ignore : Bool} {f : File} {p : Text} (h : ∀ m ∈ f.mains, m.path ≠ p) :
    fileReader env ignore (some p) f = .error (if p ∈ f.others then .typeError else .keyError) := by
  unfold fileReader
  have : f.mains.find? (·.path = p) = none := by
    rw [List.find?_eq_none]
    intro m hm
    simpa using h m hm
  simp only [this]
  split <;> rfl

theorem dimDict_rejects {env : Env} (hs : SlopeOk env) {t : Dims} : ∀ {l : List Dim} {acc : List (Text × Axis)},
    (∀ d ∈ l, d.values ≠ [] ∧ getKw d.name t.values = some d.values) →
    (∃ d ∈ l, d.values.length ≠ 1 ∧ ∃ e, env.slope d.values = .error e) →
    dimDict env false t ((l.map (·.name)).zip (l.map (·.units))) acc = .error .valueError
  | [], _, _, h => by simp at h
  | d :: l, acc, h, hu => by
    obtain ⟨h1, h2⟩ := h d (List.mem_cons_self ..)
    have hl := fun e he => h e (List.mem_cons_of_mem _ he)
    simp only [List.map_cons, List.zip_cons_cons, dimDict, getValues, h2, bind, Except.bind]
    have hrest : (¬ (d.values.length ≠ 1 ∧ ∃ e, env.slope d.values = .error e)) →
        ∃ d ∈ l, d.values.length ≠ 1 ∧ ∃ e, env.slope d.values = .error e := by
      intro hd
      obtain ⟨d', hm, hd'⟩ := hu
      rcases List.mem_cons.1 hm with e | e
      · subst e; exact absurd hd' hd
      · exact ⟨d', e, hd'⟩
    by_cases hlen : d.values.length = 1
    · rw [if_pos hlen]
      exact dimDict_rejects hs hl (hrest fun h => h.1 hlen)
    · rw [if_neg hlen]
      cases he : env.slope d.values with
      | ok s =>
        rw [stepOf_ok hs h1 hlen (.inr ⟨s, he⟩)]
        exact dimDict_rejects hs hl (hrest fun h => by obtain ⟨e, h⟩ := h.2; rw [he] at h; cases h)
      | error e =>
        have hl2 : 2 ≤ d.values.length := by
          have := List.length_pos_of_ne_nil h1
          omega
        have := hs.2 d.values e he hl2
        subst this
        have : stepOf env false d.values = .error .valueError := by
          unfold stepOf
          rw [he]
          cases hd : d.values with
          | nil => exact absurd hd h1
          | cons v vs => rfl
        rw [this]

theorem table_rejects {env : Env} (hs : SlopeOk env) {t : Dims} {dims : List Dim} (ht : Table t dims)
    (hf : ∀ d ∈ dims, d.values ≠ []) (hu : ∃ d ∈ dims, d.values.length ≠ 1 ∧ ∃ e, env.slope d.values = .error e) :
    getDimDict env false t = .error .valueError := by
  obtain ⟨l, hp, h1, h2⟩ := ht.order
  unfold getDimDict
  rw [h1, h2, dimDict_rejects hs]
  · intro d hd
    have hd' := hp.mem_iff.1 hd
    exact ⟨hf d hd', getKw_unique (ht.values d hd').1 (ht.values d hd').2⟩
  · obtain ⟨d, hd, h⟩ := hu
    exact ⟨d, hp.mem_iff.2 hd, h⟩

/-- **C116 (other spacings).** A dimension that is not uniform is an error when such dimensions are not to be ignored. -/
theorem C116_rejects_uneven {env : Env} (hs : SlopeOk env) {f : File} {m : Main} {pos spec : List Dim} (hm : m ∈ f.mains)
    (h1 : ∀ m' ∈ f.mains, m'.path = m.path → m' = m) (hl : Legible m pos spec)
    (hu : ∃ d ∈ pos ++ spec, d.values.length ≠ 1 ∧ ∃ e, env.slope d.values = .error e) :
    fileReader env false (some m.path) f = .error .valueError := by
  have hr : mainToSignals env false f m = .error .valueError := by
    have hfp := fun d hd => hl.filled d (List.mem_append_left spec hd)
    have hfs := fun d hd => hl.filled d (List.mem_append_right pos hd)
    unfold mainToSignals
    by_cases hp : ∃ d ∈ pos, d.values.length ≠ 1 ∧ ∃ e, env.slope d.values = .error e
    · rw [table_rejects hs hl.posTable hfp hp]
      rfl
    · have hok : ∀ d ∈ pos, d.values.length = 1 ∨ ∃ s, env.slope d.values = .ok s := by
        intro d hd
        by_cases hlen : d.values.length = 1
        · exact .inl hlen
        · cases he : env.slope d.values with
          | ok s => exact .inr ⟨s, rfl⟩
          | error e => exact absurd ⟨d, hd, hlen, e, he⟩ hp
      obtain ⟨_, D, e1, _⟩ := table_dict (ignore := false) hs hl.posTable hfp (.inr hok)
      have hs' : ∃ d ∈ spec, d.values.length ≠ 1 ∧ ∃ e, env.slope d.values = .error e := by
        obtain ⟨d, hd, h⟩ := hu
        rcases List.mem_append.1 hd with h' | h'
        · exact absurd ⟨d, h', h⟩ hp
        · exact ⟨d, h', h⟩
      rw [e1, table_rejects hs hl.specTable hfs hs']
      rfl
  unfold fileReader
  cases hf : f.mains.find? (·.path = m.path) with
  | none =>
    rw [List.find?_eq_none] at hf
    exact absurd (hf m hm) (by simp)
  | some m' =>
    have := h1 m' (List.mem_of_find?_eq_some hf) (by simpa using List.find?_some hf)
    subst this
    simpa only [hf] using hr

theorem found_main {env : Env} {ignore : Bool} {f : File} {m : Main} (hm : m ∈ f.mains)
    (h1 : ∀ m' ∈ f.mains, m'.path = m.path → m' = m) : fileReader env ignore (some m.path) f = mainToSignals env ignore f m := by
  unfold fileReader
  cases hf : f.mains.find? (·.path = m.path) with
  | none =>
    rw [List.find?_eq_none] at hf
    exact absurd (hf m hm) (by simp)
  | some m' =>
    have := h1 m' (List.mem_of_find?_eq_some hf) (by simpa using List.find?_some hf)
    subst this
    simp only [hf]

/-- **C116 (no array).** A dataset that cannot be brought into the shape of its dimensions is an error. -/
theorem C116_rejects_shape {env : Env} {ignore : Bool} {f : File} {m : Main} (hm : m ∈ f.mains)
    (h1 : ∀ m' ∈ f.mains, m'.path = m.path → m' = m) (hr : m.reshaped = false) (l : List Sig) :
    fileReader env ignore (some m.path) f ≠ .ok l := by
  rw [found_main hm h1]
  unfold mainToSignals
  intro h
  cases e1 : getDimDict env ignore m.pos with
  | error e => rw [e1] at h; cases h
  | ok a =>
    cases e2 : getDimDict env ignore m.spec with
    | error e => rw [e1, e2] at h; cases h
    | ok b =>
      rw [e1, e2] at h
      simp only [bind, Except.bind, hr] at h
      cases h

theorem inText_iff {a : Text} : ∀ {b : Text}, inText a b = true ↔ a <:+: b
  | [] => by simp [inText]
  | c :: t => by
    unfold inText
    rw [Bool.or_eq_true, List.isPrefixOf_iff_prefix, inText_iff, List.infix_cons_iff]

theorem splitChar_slash (b : Text) : ∀ a : Text, splitChar '/' (a ++ '/' :: b) = splitChar '/' a ++ splitChar '/' b
  | [] => by simp [splitChar]
  | c :: a => by
    rw [List.cons_append, splitChar, splitChar, splitChar_slash b a]
    split
    · rfl
    · cases hs : splitChar '/' a with
      | nil => exact absurd hs (splitChar_ne_nil '/' a)
      | cons x l => rfl

theorem parentPart_of {path a g last : Text} (h : path = g ++ '/' :: last ∨ path = a ++ '/' :: (g ++ '/' :: last)) (hg : '/' ∉ g) (hl : '/' ∉ last) :
    parentPart path = g := by
  unfold parentPart
  rcases h with rfl | rfl
  · rw [splitChar_append hg, splitChar_none hl]
    rfl
  · rw [splitChar_slash, splitChar_append hg, splitChar_none hl,
      show splitChar '/' a ++ [g, last] = (splitChar '/' a ++ [g]) ++ [last] by simp, List.dropLast_concat]
    simp

/-- `d.update(d)` changes nothing. -/
theorem update_self {α : Type} : ∀ (e d : List (Text × α)), (d.map Prod.fst).Nodup → (∀ p ∈ e, p ∈ d) → update d e = d
  | [], _, _, _ => rfl
  | p :: e, d, hd, h => by
    unfold update
    rw [List.foldl_cons, setKw_same (getKw_mem hd (h p (List.mem_cons_self ..)))]
    exact update_self e d hd fun q hq => h q (List.mem_cons_of_mem _ hq)

/-- **C116 (parameters).** The parameters of the signals are the attributes of the group of the dataset if it is a channel; else there are
none. -/
theorem C116_parameters {env : Env} {ignore : Bool} {f : File} {m : Main} (hm : m ∈ f.mains) (h1 : ∀ m' ∈ f.mains, m'.path = m.path → m' = m)
    {a g last : Text} (hp : m.path = g ++ '/' :: last ∨ m.path = a ++ '/' :: (g ++ '/' :: last)) (hg : '/' ∉ g) (hl : '/' ∉ last)
    (hn : (m.parent.map Prod.fst).Nodup) {l : List Sig} (h : fileReader env ignore (some m.path) f = .ok l) :
    ∀ s ∈ l, ("Channel".toList <:+: g → s.parameters = m.parent) ∧ (¬ "Channel".toList <:+: g → s.parameters = []) := by
  have hga : ("Channel".toList <:+: g → groupAttrs m = m.parent) ∧ (¬ "Channel".toList <:+: g → groupAttrs m = []) := by
    unfold groupAttrs
    rw [parentPart_of hp hg hl]
    constructor
    · intro hc
      rw [if_pos (inText_iff.2 hc)]
      split
      · exact update_self m.parent m.parent hn fun p hp => hp
      · rfl
    · intro hc
      rw [if_neg (fun e => hc (inText_iff.1 e))]
  rw [found_main hm h1] at h
  unfold mainToSignals at h
  cases e1 : getDimDict env ignore m.pos with
  | error e => rw [e1] at h; cases h
  | ok b =>
    cases e2 : getDimDict env ignore m.spec with
    | error e => rw [e1, e2] at h; cases h
    | ok c =>
      rw [e1, e2] at h
      simp only [bind, Except.bind] at h
      split at h
      · cases h
      · split at h
        · cases h
          intro s hs
          obtain ⟨p, -, rfl⟩ := List.mem_map.1 hs
          exact hga
        · cases h
          intro s hs
          rw [List.mem_singleton.1 hs]
          exact hga

end Verif.Props.Usid
