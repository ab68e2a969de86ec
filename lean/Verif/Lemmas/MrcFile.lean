import Verif.Spec.MrcFile
import Verif.Py.Lines
import Mathlib.Tactic.Ring
import Mathlib.Tactic.FieldSimp
import Mathlib.Tactic.Linarith
import Mathlib.Data.List.Nodup
/-! Facts about the model of MRC files. -/
namespace Verif.MrcFile

theorem okBind {α β : Type} {x : Py α} {f : α → Py β} {r : β} (h : (x >>= f) = .ok r) :
    ∃ a, x = .ok a ∧ f a = .ok r := by
  cases x with
  | error e => cases h
  | ok a => exact ⟨a, rfl, h⟩

theorem bindOk {α β : Type} {x : Py α} {a : α} (h : x = .ok a) (f : α → Py β) : (x >>= f) = f a := by rw [h]; rfl

theorem bindError {α β : Type} {x : Py α} {e : PyErr} (h : x = .error e) (f : α → Py β) : (x >>= f) = .error e := by rw [h]; rfl

/-! ### Header -/

theorem u4_of {big : Bool} {b : List UInt8} {off v : Nat} (h : Has4 big b off v) : u4 big b off = v := by
  obtain ⟨hv, hb⟩ := h
  unfold u4
  rw [hb]
  cases big
  · exact leVal_leBytes (w := 4) (by omega)
  · exact beVal_beBytes (w := 4) (by omega)

theorem f4_of {big : Bool} {b : List UInt8} {off : Nat} {r : Rat} (h : HasF big b off r) : f4 big b off = r := by
  obtain ⟨n, hn, hr⟩ := h
  unfold f4
  rw [u4_of hn, hr]

theorem header_of {big : Bool} {b : List UInt8} {f : Header} (h : Holds big b f) : header big b = .ok f := by
  unfold header
  rw [if_neg (by have := h.full; omega)]
  have e1 := u4_of h.nx
  have e2 := u4_of h.ny
  have e3 := u4_of h.nz
  have e4 := u4_of h.mode
  have e5 := u4_of h.mx
  have e6 := u4_of h.my
  have e7 := u4_of h.mz
  have e8 := f4_of h.xlen
  have e9 := f4_of h.ylen
  have e10 := f4_of h.zlen
  have e11 := u4_of h.next
  have e12 := f4_of h.xorigin
  have e13 := f4_of h.yorigin
  have e14 := f4_of h.zorigin
  norm_num at e1 e2 e3 e4 e5 e6 e7 e8 e9 e10 e11 e12 e13 e14
  rw [e1, e2, e3, e4, e5, e6, e7, e8, e9, e10, e11, e12, e13, e14]

theorem dataType_of {m w : Nat} {t : DType} (h : (m, t, w) ∈ modes) : dataType m = .ok t ∧ t.itemSize = w := by
  have q : ∀ x ∈ modes, dataType x.1 = .ok x.2.1 ∧ x.2.1.itemSize = x.2.2 := by
    intro x hx
    simp only [modes, List.mem_cons, List.not_mem_nil, or_false] at hx
    rcases hx with rfl | rfl | rfl | rfl | rfl | rfl <;> exact ⟨rfl, rfl⟩
  exact q _ h

theorem dataType_not {m : Nat} (h : ∀ x ∈ modes, x.1 ≠ m) : dataType m = .error .valueError := by
  unfold dataType
  have q : ∀ k ∈ [0, 1, 2, 4, 6, 12], m ≠ k := by
    intro k hk e
    subst e
    have : ∀ k ∈ [0, 1, 2, 4, 6, 12], ∃ x ∈ modes, x.1 = k := by decide
    obtain ⟨x, hx, e⟩ := this m hk
    exact h x hx e
  rw [if_neg (q 0 (by decide)), if_neg (q 1 (by decide)), if_neg (q 2 (by decide)), if_neg (q 4 (by decide)),
    if_neg (q 6 (by decide)), if_neg (q 12 (by decide))]

theorem size_product : ∀ l : List Nat, size l = product l
  | [] => rfl
  | n :: l => by unfold size product; rw [size_product l]

/-! ### Axes -/

theorem plainAxes_spec {ents : List (Text × Rat × Rat × Option Text × Bool)} {full ds : List Nat} (h1 : ents.length = full.length)
    (h2 : ds.length ≤ full.length) : (plainAxes ents full ds).length = ds.length ∧
      ∀ (i : Nat) a, (plainAxes ents full ds)[i]? = some a → ∃ e, ents[i + full.length - ds.length]? = some e ∧ i < ds.length ∧
        a = ⟨ds.getD i 0, i, e.1, e.2.1, e.2.2.1, e.2.2.2.1, e.2.2.2.2⟩ := by
  have key : plainAxes ents full ds = (List.range ds.length).map fun i =>
      let e := ents.getD (i + full.length - ds.length) ([], 0, 0, none, false)
      ⟨ds.getD i 0, i, e.1, e.2.1, e.2.2.1, e.2.2.2.1, e.2.2.2.2⟩ := by
    unfold plainAxes
    rw [← List.filterMap_eq_map]
    refine List.filterMap_congr fun i hi => ?_
    have hi := List.mem_range.1 hi
    have hlt : i + full.length - ds.length < ents.length := by omega
    simp [List.getElem?_eq_getElem hlt]
  rw [key]
  refine ⟨by simp, fun i a ha => ?_⟩
  rw [List.getElem?_map] at ha
  cases hr : (List.range ds.length)[i]? with
  | none => rw [hr] at ha; cases ha
  | some j =>
    have hi : i < ds.length := by
      by_contra hc
      rw [List.getElem?_eq_none (by simp; omega)] at hr
      cases hr
    rw [List.getElem?_range hi] at hr
    injection hr with hr
    subst hr
    rw [List.getElem?_range hi] at ha
    injection ha with ha
    have hlt : i + full.length - ds.length < ents.length := by omega
    refine ⟨ents[i + full.length - ds.length], List.getElem?_eq_getElem hlt, hi, ?_⟩
    rw [← ha]
    simp [List.getElem?_eq_getElem hlt]

theorem entries_at {k : Nat} {sc of : List Rat} (h1 : sc.length = 3) (h2 : of.length = 3) {j : Nat}
    {e : Text × Rat × Rat × Option Text × Bool} (h : (entries k sc of)[j]? = some e) :
    (List.replicate k [] ++ [['z'], ['y'], ['x']])[j]? = some e.1 ∧ (List.replicate k 1 ++ sc)[j]? = some e.2.1 ∧
    (List.replicate k 0 ++ of)[j]? = some e.2.2.1 ∧
    (List.replicate (k + 1) none ++ [some ['n', 'm'], some ['n', 'm']])[j]? = some e.2.2.2.1 ∧
    (List.replicate (k + 1) true ++ [false, false])[j]? = some e.2.2.2.2 := by
  unfold entries at h
  simp only [List.getElem?_zip_eq_some] at h
  exact ⟨h.1, h.2.1, h.2.2.1, h.2.2.2.1, h.2.2.2.2⟩

theorem entries_length {k : Nat} {sc of : List Rat} (h1 : sc.length = 3) (h2 : of.length = 3) : (entries k sc of).length = k + 3 := by
  unfold entries
  simp [h1, h2]

theorem scales_length (h : Header) (o : Option Rat) : (scales h o).length = 3 := by cases o <;> rfl
theorem offsets_length (h : Header) (o : Option Rat) : (offsets h o).length = 3 := by cases o <;> rfl

/-- The element of a column behind `k` others. -/
theorem column {α : Type} {k n : Nat} {x v : α} {l : List α} (h : (List.replicate k x ++ l)[k + n]? = some v) : l[n]? = some v := by
  rw [List.getElem?_append_right (by simp)] at h
  simpa using h

theorem column_before {α : Type} {k j : Nat} {x v : α} {l : List α} (hj : j < k) (h : (List.replicate k x ++ l)[j]? = some v) :
    v = x := by
  rw [List.getElem?_append_left (by simpa using hj), List.getElem?_replicate, if_pos hj] at h
  injection h with h
  exact h.symm

theorem cellScale_spec (len : Rat) (n : Nat) : (n ≠ 0 → cellScale len n * n * 10 = len) ∧ (n = 0 → cellScale len n = 1) := by
  unfold cellScale
  refine ⟨fun hn => ?_, fun hn => by rw [if_neg (by simpa using hn)]⟩
  rw [if_pos hn]
  have : (n : Rat) ≠ 0 := by exact_mod_cast hn
  field_simp

theorem fei_some {big : Bool} {b : List UInt8} {f : Header} (h : f.next = 131072) (hl : 1024 + f.next ≤ b.length) :
    feiPixel big b f = some (f4 big b 1068) := by
  unfold feiPixel
  rw [if_pos ⟨h, by omega⟩]

theorem fei_none {big : Bool} {b : List UInt8} {f : Header} (h : f.next ≠ 131072) : feiPixel big b f = none := by
  unfold feiPixel
  rw [if_neg (fun hc => h hc.1)]

theorem axes_for {big : Bool} {b : List UInt8} {f : Header} {k : Nat} {full ds : List Nat} (hk : full.length = k + 3)
    (hd : ds.length ≤ full.length) (hl : 1024 + f.next ≤ b.length) :
    AxesFor big b f ds (plainAxes (entries k (scales f (feiPixel big b f)) (offsets f (feiPixel big b f))) full ds) := by
  have h1 := scales_length f (feiPixel big b f)
  have h2 := offsets_length f (feiPixel big b f)
  obtain ⟨hlen, hax⟩ := plainAxes_spec (ents := entries k (scales f (feiPixel big b f)) (offsets f (feiPixel big b f)))
    (full := full) (ds := ds) (by rw [entries_length h1 h2, hk]) hd
  refine ⟨hlen, fun i a ha => ?_⟩
  obtain ⟨e, he, hi, rfl⟩ := hax i a ha
  obtain ⟨e1, e2, e3, e4, e5⟩ := entries_at h1 h2 he
  refine ⟨rfl, by simp [List.getElem?_eq_getElem hi], fun hx => ?_, fun hx => ?_, fun hx => ?_, fun hx => ?_⟩
  · rw [show i + full.length - ds.length = k + 2 by omega] at e1 e2 e3 e4 e5
    have c1 := column e1
    have c2 := column e2
    have c3 := column e3
    rw [show k + 2 = (k + 1) + 1 by omega] at e4 e5
    have c4 := column e4
    have c5 := column e5
    injection c1 with c1
    injection c4 with c4
    injection c5 with c5
    refine ⟨c1.symm, c4.symm, c5.symm, ?_⟩
    by_cases hn : f.next = 131072
    · rw [fei_some hn hl] at c2 c3
      injection c2 with c2
      injection c3 with c3
      refine ⟨fun _ => ⟨fun p hp => ?_, c3.symm⟩, fun hc => absurd hn hc⟩
      rw [← f4_of hp]
      dsimp only
      rw [← c2]
      norm_num
    · rw [fei_none hn] at c2 c3
      injection c2 with c2
      injection c3 with c3
      refine ⟨fun hc => absurd hc hn, fun _ => ⟨?_, ?_, ?_⟩⟩
      · intro h; dsimp only; rw [← c2]; exact (cellScale_spec _ _).1 h
      · intro h; dsimp only; rw [← c2]; exact (cellScale_spec _ _).2 h
      · dsimp only; rw [← c3]; ring
  · rw [show i + full.length - ds.length = k + 1 by omega] at e1 e2 e3 e4 e5
    have c1 := column e1
    have c2 := column e2
    have c3 := column e3
    have c4 := column (n := 0) e4
    have c5 := column (n := 0) e5
    injection c1 with c1
    injection c4 with c4
    injection c5 with c5
    refine ⟨c1.symm, c4.symm, c5.symm, ?_⟩
    by_cases hn : f.next = 131072
    · rw [fei_some hn hl] at c2 c3
      injection c2 with c2
      injection c3 with c3
      refine ⟨fun _ => ⟨fun p hp => ?_, c3.symm⟩, fun hc => absurd hn hc⟩
      rw [← f4_of hp]
      dsimp only
      rw [← c2]
      norm_num
    · rw [fei_none hn] at c2 c3
      injection c2 with c2
      injection c3 with c3
      refine ⟨fun hc => absurd hc hn, fun _ => ⟨?_, ?_, ?_⟩⟩
      · intro h; dsimp only; rw [← c2]; exact (cellScale_spec _ _).1 h
      · intro h; dsimp only; rw [← c2]; exact (cellScale_spec _ _).2 h
      · dsimp only; rw [← c3]; ring
  · rw [show i + full.length - ds.length = k + 0 by omega] at e1 e2 e3 e4 e5
    have c1 := column e1
    have c2 := column e2
    have c3 := column e3
    have c4 := column_before (by omega) e4
    have c5 := column_before (by omega) e5
    injection c1 with c1
    refine ⟨c1.symm, c4, c5, ?_⟩
    by_cases hn : f.next = 131072
    · rw [fei_some hn hl] at c2 c3
      injection c2 with c2
      injection c3 with c3
      exact ⟨fun _ => ⟨c2.symm, c3.symm⟩, fun hc => absurd hn hc⟩
    · rw [fei_none hn] at c2 c3
      injection c2 with c2
      injection c3 with c3
      refine ⟨fun hc => absurd hc hn, fun _ => ⟨?_, ?_, ?_⟩⟩
      · intro h h'
        dsimp only
        rw [← c2]
        unfold depthScale
        rw [if_pos ⟨h', h⟩]
        have := (cellScale_spec f.zlen f.mz).1 h
        unfold cellScale at this
        rwa [if_pos h] at this
      · intro h
        dsimp only
        rw [← c2]
        unfold depthScale
        rw [if_neg]
        rintro ⟨a, b⟩
        rcases h with h | h
        · exact b h
        · exact a h
      · dsimp only; rw [← c3]; ring
  · exact ⟨column_before (by omega) e1, column_before (by omega) e4, column_before (by omega) e5, column_before (by omega) e2,
      column_before (by omega) e3⟩

/-! ### Positions -/

theorem foldl_max : ∀ (l : List Nat) (a : Nat), (∀ v ∈ l, v ≤ l.foldl max a) ∧ a ≤ l.foldl max a ∧ (l.foldl max a = a ∨ l.foldl max a ∈ l)
  | [], a => ⟨fun v hv => (nomatch hv), Nat.le_refl _, .inl rfl⟩
  | x :: l, a => by
    obtain ⟨h1, h2, h3⟩ := foldl_max l (max a x)
    rw [List.foldl_cons]
    refine ⟨fun v hv => ?_, le_trans (le_max_left _ _) h2, ?_⟩
    · rcases List.mem_cons.1 hv with rfl | hv
      · exact le_trans (le_max_right _ _) h2
      · exact h1 v hv
    · rcases h3 with h3 | h3
      · rcases max_choice a x with h | h
        · exact .inl (h3.trans h)
        · exact .inr (by rw [h3, h]; exact List.mem_cons_self)
      · exact .inr (List.mem_cons_of_mem _ h3)

theorem maxNat_bound {l : List Nat} (h : l ≠ []) : IsBound l (maxNat l + 1) := by
  obtain ⟨h1, -, h3⟩ := foldl_max l 0
  refine ⟨fun v hv => Nat.lt_succ_of_le (h1 v hv), maxNat l, ?_, rfl⟩
  rcases h3 with h3 | h3
  · cases l with
    | nil => exact absurd rfl h
    | cons x l =>
      have := h1 x List.mem_cons_self
      rw [h3] at this
      have hx : x = 0 := by omega
      unfold maxNat
      rw [h3]
      rw [hx]
      exact List.mem_cons_self
  · exact h3

theorem maxNat_le {l : List Nat} {v : Nat} (h : v ∈ l) : v ≤ maxNat l := (foldl_max l 0).1 v h

theorem numberFrom_at : ∀ {ps done : List (Nat × Nat)} {k : Nat} {q : Nat × Nat}, ps[k]? = some q →
    (numberFrom done ps)[k]? = some [q.1, q.2, (ps.take k).count q + done.count q]
  | p :: ps, done, 0, q, h => by
    injection h with h
    subst h
    simp [numberFrom, earlier]
  | p :: ps, done, k + 1, q, h => by
    rw [List.getElem?_cons_succ] at h
    unfold numberFrom
    rw [List.getElem?_cons_succ, numberFrom_at h, List.take_succ_cons, List.count_cons, List.count_cons]
    congr 4
    omega

theorem numberFrom_length : ∀ {ps done : List (Nat × Nat)}, (numberFrom done ps).length = ps.length
  | [], _ => rfl
  | p :: ps, done => by unfold numberFrom; rw [List.length_cons, numberFrom_length, List.length_cons]

theorem numberFrom_ge : ∀ {ps done : List (Nat × Nat)} {e : List Nat}, e ∈ numberFrom done ps →
    ∃ q n, e = [q.1, q.2, n] ∧ done.count q ≤ n
  | p :: ps, done, e, h => by
    unfold numberFrom at h
    rcases List.mem_cons.1 h with rfl | h
    · exact ⟨p, _, rfl, Nat.le_refl _⟩
    · obtain ⟨q, n, he, hn⟩ := numberFrom_ge h
      refine ⟨q, n, he, le_trans ?_ hn⟩
      rw [List.count_cons]
      omega

theorem numberFrom_nodup : ∀ {ps done : List (Nat × Nat)}, (numberFrom done ps).Nodup
  | [], _ => List.nodup_nil
  | p :: ps, done => by
    unfold numberFrom
    refine List.nodup_cons.2 ⟨fun h => ?_, numberFrom_nodup⟩
    obtain ⟨q, n, he, hn⟩ := numberFrom_ge h
    injection he with e1 he
    injection he with e2 he
    injection he with e3 he
    have : q = p := Prod.ext e1.symm e2.symm
    subst this
    rw [List.count_cons_self] at hn
    unfold earlier at e3
    omega

theorem swap_inj : Function.Injective (fun r : Nat × Nat => (r.2, r.1)) := fun a b h => by
  injection h with h1 h2
  exact Prod.ext h2 h1

theorem repeats_iff {rows : List (Nat × Nat)} :
    1 < maxNat (rows.map fun p => rows.count p) ↔ ¬rows.Nodup := by
  rw [List.nodup_iff_count_le_one]
  constructor
  · intro h hc
    have hne : (rows.map fun p => rows.count p) ≠ [] := by
      intro e
      rw [e] at h
      exact absurd h (by decide)
    obtain ⟨-, v, hv, e⟩ := maxNat_bound hne
    obtain ⟨p, -, hp⟩ := List.mem_map.1 hv
    have := hc p
    omega
  · intro h
    push Not at h
    obtain ⟨p, hp⟩ := h
    have hm : p ∈ rows := List.count_pos_iff.1 (by omega)
    exact lt_of_lt_of_le hp (maxNat_le (List.mem_map.2 ⟨p, hm, rfl⟩))

theorem positionsOf_places {rows : List (Nat × Nat)} (h : 2 ≤ rows.length) : ∃ p, positionsOf rows = .ok p ∧ Places rows p := by
  have hne : rows ≠ [] := by intro e; rw [e] at h; exact absurd h (by decide)
  unfold positionsOf
  rw [if_neg (by omega)]
  dsimp only
  have hnd : (rows.map fun r => (r.2, r.1)).Nodup ↔ rows.Nodup := List.nodup_map_iff swap_inj
  have b1 : IsBound (rows.map Prod.snd) (maxNat ((rows.map fun r => (r.2, r.1)).map Prod.fst) + 1) := by
    rw [List.map_map]
    exact maxNat_bound (by simpa using hne)
  have b2 : IsBound (rows.map Prod.fst) (maxNat ((rows.map fun r => (r.2, r.1)).map Prod.snd) + 1) := by
    rw [List.map_map]
    exact maxNat_bound (by simpa using hne)
  by_cases hr : 1 < maxNat ((rows.map fun r => (r.2, r.1)).map fun p => (rows.map fun r => (r.2, r.1)).count p)
  · rw [if_pos hr]
    have hn : ¬rows.Nodup := fun hc => repeats_iff.1 hr (hnd.2 hc)
    refine ⟨_, rfl, by simp [numberFrom_length], numberFrom_nodup, fun hc => absurd hc hn, fun _ => ⟨_, _, _, rfl, b1, b2, ?_⟩⟩
    intro k x y hk
    have hk' : (rows.map fun r => (r.2, r.1))[k]? = some (y, x) := by rw [List.getElem?_map, hk]; rfl
    have hcnt : ((rows.map fun r => (r.2, r.1)).take k).count (y, x) = (rows.take k).count (x, y) := by
      rw [← List.map_take]
      exact List.count_map_of_injective _ _ swap_inj (x, y)
    constructor
    · have hm : (y, x) ∈ rows.map fun r => (r.2, r.1) := List.mem_of_getElem? hk'
      have h1 : ((rows.map fun r => (r.2, r.1)).take (k + 1)).count (y, x) ≤ (rows.map fun r => (r.2, r.1)).count (y, x) :=
        (List.take_sublist _ _).count_le _
      rw [List.take_add_one, hk', List.count_append, hcnt] at h1
      have h2 := maxNat_le (List.mem_map.2 ⟨(y, x), hm, rfl⟩ :
        (rows.map fun r => (r.2, r.1)).count (y, x) ∈ (rows.map fun r => (r.2, r.1)).map fun p => (rows.map fun r => (r.2, r.1)).count p)
      simp at h1
      omega
    · rw [numberFrom_at hk', hcnt]
      simp
  · rw [if_neg hr]
    have hn : rows.Nodup := hnd.1 (by by_contra hc; exact hr (repeats_iff.2 hc))
    refine ⟨_, rfl, by simp, ?_, fun _ => ⟨_, _, rfl, b1, b2, ?_⟩, fun hc => absurd hn hc⟩
    · refine (List.nodup_map_iff ?_).2 (hnd.2 hn)
      intro a b hab
      injection hab with h1 h2
      injection h2 with h2 h3
      exact Prod.ext h1 h2
    · intro k x y hk
      rw [List.getElem?_map, List.getElem?_map, hk]
      rfl

/-! ### Metadata -/

theorem floatOr_of {env : Env} {md : Meta} {key : String} {d r : Rat} (h : NumIs env md key d r) : floatOr env md key d = .ok r := by
  unfold floatOr
  cases hk : getKw key.toList md with
  | none => rw [h.1 hk]
  | some t => dsimp only; rw [h.2 t hk]

theorem intOr_of {env : Env} {md : Meta} {key : String} {d n : Int} (h : IntIs env md key d n) : intOr env md key d = .ok n := by
  unfold intOr
  cases hk : getKw key.toList md with
  | none => rw [h.1 hk]
  | some t => dsimp only; rw [h.2 t hk]

theorem scanning_iff {md : Meta} : scanning md = true ↔ Scans md := by
  unfold scanning Scans textOr
  cases getKw "Scan - Enable".toList md with
  | none => simp only [Option.getD_none, decide_eq_true_eq, reduceCtorEq, iff_false]; decide
  | some t => simp only [Option.getD_some, decide_eq_true_eq, Option.some.injEq]

theorem raster_iff {md : Meta} : raster md = true ↔ IsRaster md := by
  unfold raster IsRaster textOr
  cases getKw "Scan - Type".toList md with
  | none => simp only [Option.getD_none, decide_true, reduceCtorEq, false_implies, implies_true]
  | some t =>
    simp only [Option.getD_some, decide_eq_true_eq, Option.some.injEq]
    exact ⟨fun h s hs => hs ▸ h, fun h => h t rfl⟩

theorem stemMode_of {env : Env} {md : Meta} (h : IsStem env md) : stemMode env md = .ok true := by
  obtain ⟨m, hm, h0, h1⟩ := h
  unfold stemMode
  rw [intOr_of hm]
  dsimp only
  by_cases hc : m = -1
  · rw [if_pos hc, scanning_iff.2 (h1 hc)]
  · rw [if_neg hc, if_neg h0]

theorem stemMode_not {env : Env} {md : Meta} (h : IsTem env md) : stemMode env md = .ok false := by
  obtain ⟨m, hm, h0 | ⟨h0, h1⟩⟩ := h
  · unfold stemMode
    rw [intOr_of hm]
    dsimp only
    rw [if_neg (by omega), if_pos h0]
  · unfold stemMode
    rw [intOr_of hm]
    dsimp only
    rw [if_pos h0]
    have : scanning md = false := by
      cases hs : scanning md
      · rfl
      · exact absurd (scanning_iff.1 hs) h1
    rw [this]

theorem scanSize_of {env : Env} {md : Meta} {x y : Nat} (h : ScanSizeIs env md x y) : scanSize env md = .ok (x, y) := by
  unfold scanSize textOr
  by_cases hr : getKw "Scan - ROI Enable".toList md = some "Enable".toList
  · obtain ⟨h1, h2⟩ := h.1 hr
    rw [hr, if_pos (by rfl), bindOk (intOr_of h1), bindOk (intOr_of h2)]
  · obtain ⟨h1, h2⟩ := h.2 hr
    rw [if_neg, bindOk (intOr_of h1), bindOk (intOr_of h2)]
    intro hc
    cases hk : getKw "Scan - ROI Enable".toList md with
    | none => rw [hk] at hc; exact absurd hc (by decide)
    | some t => rw [hk] at hc hr; exact hr (congrArg some hc)

theorem scanScales_of {env : Env} {md : Meta} (h : Readable env md) : ∃ a b c d e f, scanScales env md = .ok [a, b, c, d, e, f] := by
  obtain ⟨h1, h2, ⟨r3, h3⟩, ⟨r4, h4⟩, ⟨r5, h5⟩, ⟨r6, h6⟩, -⟩ := h
  unfold scanScales
  have ht : timeScale env md = .ok 2 := by unfold timeScale; rw [h1, h2]
  rw [bindOk ht, bindOk (floatOr_of h3), bindOk (floatOr_of h4), bindOk (floatOr_of h5), bindOk (floatOr_of h6)]
  exact ⟨_, _, _, _, _, _, rfl⟩

theorem gainOf_of {env : Env} {md : Meta} {g : Rat} (h : NumIs env md "ADUs Per Electron Bin1x" 1 g) (h0 : g ≠ 0) :
    gainOf env md = .ok (1 / g) := by
  unfold gainOf
  rw [floatOr_of h]
  dsimp only
  rw [if_neg h0]

theorem scanAxes_of {env : Env} {md : Meta} (h : Readable env md) {size : Int × Int} (hs : scanSize env md = .ok size)
    {nav : Option (List Nat)} {x y : Nat} (hn : navSizes size nav = (1, (y : Int), (x : Int))) :
    ∃ a b c d kx ky, kx ≠ 1 ∧ ky ≠ 1 ∧ scanAxes env md nav = .ok (keepAxes 0
      ([(("y".toList, "nm".toList, true), (y : Int), a), (("x".toList, "nm".toList, true), (x : Int), b),
       (("ky".toList, "nm^-1".toList, false), ky, c), (("kx".toList, "nm^-1".toList, false), kx, d)]),
      some ([(x : Int), (y : Int)].filter (· ≠ 1))) := by
  obtain ⟨s0, s1, s2, s3, s4, s5, hsc⟩ := scanScales_of h
  obtain ⟨-, -, -, -, -, -, ⟨kx, hx, hx1⟩, ky, hy, hy1⟩ := h
  refine ⟨s1, s2, s4, s5, kx, ky, hx1, hy1, ?_⟩
  unfold scanAxes
  rw [bindOk hsc, bindOk hs, bindOk (intOr_of hx), bindOk (intOr_of hy)]
  dsimp only
  rw [hn]
  unfold scanColumns
  simp only [List.zip_cons_cons, List.zip_nil_right]
  refine congrArg Except.ok (Prod.ext ?_ ?_)
  · dsimp only
    rfl
  · dsimp only
    refine congrArg some ?_
    rw [List.filter_cons_of_neg (by decide)]
    rw [show [(x : Int), (y : Int), 1] = [(x : Int), (y : Int)] ++ [1] from rfl, List.filter_append,
      show [(1 : Int)].filter (· ≠ 1) = [] from rfl, List.append_nil]

/-- The dimensions of a scan of x by y points, those of one point left out. -/
def scanDims (x y : Nat) : List Nat := (if y = 1 then [] else [y]) ++ (if x = 1 then [] else [x])

theorem natSizes_of (x y : Nat) : natSizes ([(x : Int), (y : Int)].filter (· ≠ 1)) = .ok (scanDims x y).reverse := by
  unfold natSizes scanDims
  by_cases hx : x = 1 <;> by_cases hy : y = 1
  · subst hx; subst hy; rfl
  · subst hx
    have : ((y : Int) ≠ 1) := by omega
    simp [hy]
  · subst hy
    simp [hx]
  · simp [hx, hy]

theorem views_of {a b c d : Scale} {kx ky : Int} (hx1 : kx ≠ 1) (hy1 : ky ≠ 1) (x y nx ny : Nat) :
    (setSizes (keepAxes 0
      ([(("y".toList, "nm".toList, true), (y : Int), a), (("x".toList, "nm".toList, true), (x : Int), b),
       (("ky".toList, "nm^-1".toList, false), ky, c), (("kx".toList, "nm^-1".toList, false), kx, d)]))
      (scanDims x y ++ [ny, nx])).map DeAxis.view = scanViews x y nx ny := by
  unfold scanViews scanDims
  by_cases hx : x = 1 <;> by_cases hy : y = 1 <;>
    simp only [keepAxes, ne_eq, hx, hy, hx1, hy1, Nat.cast_one, not_true_eq_false, not_false_eq_true, if_true, if_false,
      List.nil_append, List.cons_append, setSizes, List.map_cons, List.map_nil, DeAxis.view, sigAxis, navAxis,
      Nat.cast_eq_one]

theorem keepAxes_numbered : ∀ (l : List ((Text × Text × Bool) × Int × Scale)) (k i : Nat) a,
    (keepAxes k l)[i]? = some a → a.index = k + i
  | [], k, i, a, h => by cases i <;> cases h
  | (c, n, s) :: l, k, i, a, h => by
    unfold keepAxes at h
    split at h
    · cases i with
      | zero => injection h with h; rw [← h]; rfl
      | succ i =>
        rw [List.getElem?_cons_succ] at h
        have := keepAxes_numbered l (k + 1) i a h
        omega
    · exact keepAxes_numbered l k i a h

theorem setSizes_index : ∀ (l : List DeAxis) (ns : List Nat) (i : Nat) a, (setSizes l ns)[i]? = some a →
    ∃ a', l[i]? = some a' ∧ a.index = a'.index
  | [], ns, i, a, h => by
    have : setSizes [] ns = [] := by cases ns <;> rfl
    rw [this] at h
    cases i <;> cases h
  | x :: l, [], i, a, h => ⟨a, h, rfl⟩
  | x :: l, n :: ns, 0, a, h => by
    injection h with h
    exact ⟨x, rfl, by rw [← h]⟩
  | x :: l, n :: ns, i + 1, a, h => setSizes_index l ns i a h

theorem numbered_of (l : List ((Text × Text × Bool) × Int × Scale)) (ns : List Nat) : Numbered (setSizes (keepAxes 0 l) ns) := by
  intro i a h
  obtain ⟨a', h', e⟩ := setSizes_index _ _ _ _ h
  rw [e, keepAxes_numbered l 0 i a' h']
  omega

/-! ### Lines -/

theorem strip_plain {s : Text} (h : Plain s) {t : Text} (ht : ∀ c ∈ t, isSpace c = true) : stripBy isSpace (s ++ t) = s := by
  rw [stripBy_append ht]
  unfold stripBy
  rw [lstripBy_id h.2.2.2.1, rstripBy_id h.2.2.2.2]

theorem metaLine_of {k v : Text} (hk : Plain k) (hv : Plain v) (d : Meta) :
    metaLine d (k ++ " = ".toList ++ v ++ ['\n']) = setKw k v d := by
  unfold metaLine
  have e : k ++ " = ".toList ++ v ++ ['\n'] = (k ++ [' ']) ++ '=' :: (' ' :: (v ++ ['\n'])) := by simp
  have h1 : '=' ∉ k ++ [' '] := by simp [hk.1]
  have h2 : '=' ∉ ' ' :: (v ++ ['\n']) := by simp [hv.1]
  rw [e, splitChar_append h1, splitChar_none h2]
  dsimp only
  rw [strip_plain hk (by decide)]
  have : stripBy isSpace (' ' :: (v ++ ['\n'])) = stripBy isSpace (v ++ ['\n']) := rfl
  rw [this, strip_plain hv (by decide)]

end Verif.MrcFile
