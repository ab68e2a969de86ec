import Verif.Props.Nexus
import Mathlib.Data.List.Nodup
import Mathlib.Data.List.Range
import Mathlib.Tactic.Ring
import Mathlib.Tactic.Positivity
import Mathlib.Tactic.Linarith
import Mathlib.Data.Rat.Floor
/-! C123: the axes of a signal in a NeXus file. -/
namespace Verif.Props.Nexus
open Verif Verif.Nexus

theorem clean_id {t : Text} (h0 : '\x00' ∉ t) (hs : ∀ c, t.getLast? = some c → isSpace c = false) : clean t = t := by
  unfold clean
  rw [List.filter_eq_self.2 (by
    intro c hc
    have : c ≠ '\x00' := by rintro rfl; exact h0 hc
    simpa using this)]
  unfold rstripBy
  cases hr : t.reverse with
  | nil => simpa using hr.symm
  | cons c l =>
    have : t.getLast? = some c := by rw [List.getLast?_eq_head?_reverse, hr]; rfl
    rw [List.dropWhile_cons_of_neg (by rw [hs c this]; simp), ← hr, List.reverse_reverse]

theorem parse_says {a : Attrs} {k t : String} (h : Says a k t) (h0 : '\x00' ∉ t.toList) (hs : ∀ c, t.toList.getLast? = some c → isSpace c = false) :
    (getKw k.toList a).map parseAttr = some (.str t.toList) := by
  rcases h with h | h <;> rw [h]
  · rfl
  · show some (R.str (clean t.toList)) = _
    rw [clean_id h0 hs]

theorem units_of {a : Attrs} {u : R} (h : Units a u) : unitsOf a = u := by
  unfold unitsOf
  rcases h with ⟨h, rfl⟩ | ⟨t, h, rfl⟩ | ⟨t, h, rfl, h0, hs⟩ <;> rw [h]
  · rfl
  · show R.str (clean t) = _
    rw [clean_id h0 hs]

theorem truncate_nat (j : Nat) : truncate (j : ℚ) = (j : Int) := by
  unfold truncate
  rw [if_pos (by positivity)]
  exact_mod_cast Rat.floor_intCast (j : Int)

theorem dimension_of {a : Attrs} {k : Text} {i j : Nat} (h : Dimension a k i j) : indexOf a k i = .ok (j : Int) := by
  unfold indexOf
  rcases h with ⟨h, rfl⟩ | h | ⟨sh, l, h⟩ <;> rw [h]
  · dsimp only; rw [truncate_nat]
  · dsimp only; rw [truncate_nat]

/-! ### Evenly spaced values -/

theorem evenly_succ (o s : ℚ) (n : Nat) : evenly o s (n + 1) = o :: evenly (o + s) s n := by
  unfold evenly
  rw [List.range_succ_eq_map, List.map_cons, List.map_map]
  congr 1
  · simp
  · apply List.map_congr_left
    intro i _
    simp only [Function.comp_apply, Nat.succ_eq_add_one]
    push_cast
    ring

theorem diffs_evenly (s : ℚ) : ∀ (o : ℚ) (n : Nat), diffs (evenly o s n) = List.replicate (n - 1) s
  | o, 0 => rfl
  | o, 1 => rfl
  | o, n + 2 => by
    have ih := diffs_evenly s (o + s) (n + 1)
    rw [evenly_succ] at ih
    rw [evenly_succ, evenly_succ, diffs, ih]
    have : o + s - o = s := by ring
    rw [this]
    rfl

theorem linear_evenly (o s : ℚ) (n : Nat) : isLinear (evenly o s n) = true := by
  unfold isLinear
  rw [diffs_evenly]
  cases n - 1 with
  | zero => rfl
  | succ m =>
    rw [List.replicate_succ]
    refine List.all_eq_true.2 fun x hx => ?_
    have : x = s := by
      rcases List.mem_cons.1 hx with h | h
      · exact h
      · exact List.eq_of_mem_replicate h
    subst this
    refine decide_eq_true ?_
    rw [sub_self, abs_zero]
    have := abs_nonneg x
    positivity

theorem axis_evenly {shape : List Nat} {j n m : Nat} {k : Text} {u : R} {o s : ℚ} (hn : shape[j]? = some n) (h2 : 2 ≤ m) (hs : 0 < s) :
    axisOf shape j k u (.nums [m] (evenly o s m)) = .ok ⟨n, j, some k, s, o, some u, true⟩ := by
  obtain ⟨m, rfl⟩ := Nat.exists_eq_add_of_le' h2
  have hl := linear_evenly o s (m + 2)
  have e := evenly_succ o s (m + 1)
  rw [evenly_succ (o + s) s m] at e
  rw [e] at hl ⊢
  have hlast : ((o + s) :: evenly (o + s + s) s m).getLastD (o + s) = o + s * (m + 1) := by
    have h1 : (o + s) :: evenly (o + s + s) s m = evenly (o + s) s (m + 1) := (evenly_succ _ _ _).symm
    rw [h1, List.getLastD_eq_getLast?]
    unfold evenly
    rw [List.range_succ, List.map_append, List.map_singleton, List.getLast?_concat]
    simp only [Option.getD_some]
    ring
  unfold axisOf
  rw [hn]
  dsimp only
  rw [if_pos hl, hlast]
  have e1 : |o + s - o| = s := by
    have : o + s - o = s := by ring
    rw [this, abs_of_pos hs]
  have e2 : min o (o + s * (m + 1)) = o := by
    apply min_eq_left
    have : 0 ≤ s * ((m : ℚ) + 1) := by positivity
    linarith
  rw [e1, e2]

/-! ### The loop -/

theorem behind_kid {l : Kids} {k : Text} {nd : Node} {b : Attrs} {v : Leaf} (hg : getKw k l = some nd) (hb : Behind false nd (.ds b v)) : kid k l = .ok (b, v) := by
  unfold kid; rw [hg]; exact behind_dsOf hb

theorem remove_ok {j : Nat} {l : List Nat} (h : j ∈ l) : remove (j : Int) l = .ok (l.erase j) := by
  unfold remove
  rw [if_pos ⟨Int.natCast_nonneg j, by simpa using h⟩]
  simp

theorem named_ok {shape : List Nat} {a : Attrs} {kids : Kids} {i j : Nat} {k : Text} {nd : Node} {b : Attrs} {v : Leaf} {u : R} {x : Ax} {named : List Nat}
    (hd : Dimension a k i j) (hg : getKw k kids = some nd) (hb : Behind false nd (.ds b v)) (hu : Units b u) (hx : axisOf shape j k u v = .ok x) (hj : j ∈ named) :
    namedAxis shape a kids i k named = .ok (named.erase j, x) := by
  unfold namedAxis
  rw [dimension_of hd]
  simp only [bind, Except.bind, pure, Except.pure]
  rw [behind_kid hg hb]
  dsimp only
  rw [remove_ok hj]
  dsimp only
  rw [units_of hu, Int.toNat_natCast, hx]

/-- Without dots, for any order of the dimensions. -/
theorem loop_named {shape : List Nat} {a : Attrs} {kids : Kids} {count : Nat} {i : Nat} {names : List Text} {js : List Nat} {xs : List Ax} (r : Rows shape a kids i names js xs)
    (hd : ['.'] ∉ names) : ∀ (named : List Nat) (det : Nat) (l : List Ax), js.Nodup → (∀ j ∈ js, j ∈ named) →
      axesLoop shape a kids count i names named det l = .ok (l ++ xs) := by
  induction r with
  | nil i => intro named det l _ _; rw [axesLoop, List.append_nil]
  | dot hn r ih => exact absurd List.mem_cons_self hd
  | named hk hn hdim hg hb hu h2 hs r ih =>
    intro named det l hnd hin
    have hj := hin _ List.mem_cons_self
    rw [axesLoop, if_neg hk, named_ok hdim hg hb hu (axis_evenly hn h2 hs) hj]
    dsimp only
    rw [ih (fun h => hd (List.mem_cons_of_mem _ h)) _ _ _ (List.nodup_cons.1 hnd).2, List.append_assoc]
    · rfl
    · intro j' hj'
      refine (List.mem_erase_of_ne ?_).2 (hin _ (List.mem_cons_of_mem _ hj'))
      rintro rfl
      exact (List.nodup_cons.1 hnd).1 hj'
  | single hk hn hdim hg hb hu r ih =>
    intro named det l hnd hin
    have hj := hin _ List.mem_cons_self
    rw [axesLoop, if_neg hk, named_ok hdim hg hb hu (x := ⟨1, _, _, 1, _, _, true⟩) rfl hj]
    dsimp only
    rw [ih (fun h => hd (List.mem_cons_of_mem _ h)) _ _ _ (List.nodup_cons.1 hnd).2, List.append_assoc]
    · rfl
    · intro j' hj'
      refine (List.mem_erase_of_ne ?_).2 (hin _ (List.mem_cons_of_mem _ hj'))
      rintro rfl
      exact (List.nodup_cons.1 hnd).1 hj'

/-- With dots, for dimensions in order. -/
theorem loop_dots {shape : List Nat} {a : Attrs} {kids : Kids} {i : Nat} {names : List Text} {js : List Nat} {xs : List Ax} (r : Rows shape a kids i names js xs) :
    ∀ (dots : List Nat) (l : List Ax), (∀ d ∈ dots, d < i) → js = List.range' i names.length →
      axesLoop shape a kids shape.length i names (dots ++ List.range' i names.length) dots.length l = .ok (l ++ xs) := by
  induction r with
  | nil i => intro dots l _ _; rw [axesLoop, List.append_nil]
  | @dot i j n names js xs hn r ih =>
    intro dots l hl hj
    rw [List.length_cons, List.range'_succ] at hj ⊢
    obtain ⟨rfl, hj⟩ := List.cons.inj hj
    rw [axesLoop, if_pos rfl]
    unfold dotAxis
    rw [if_pos rfl, List.getElem?_append_right (Nat.le_refl _), Nat.sub_self]
    simp only [List.getElem?_cons_zero]
    rw [hn]
    dsimp only
    have := ih (dots ++ [j]) (l ++ [⟨n, j, none, 1, 0, some (.str []), false⟩]) (by
      intro d hd
      rcases List.mem_append.1 hd with h | h
      · have := hl d h; omega
      · rw [List.mem_singleton.1 h]; omega) hj
    rw [List.append_assoc, List.length_append, List.append_assoc] at this
    exact this
  | @named i j n m o s k names js xs nd b u hk hn hdim hg hb hu h2 hs r ih =>
    intro dots l hl hj
    rw [List.length_cons, List.range'_succ] at hj ⊢
    obtain ⟨rfl, hj⟩ := List.cons.inj hj
    rw [axesLoop, if_neg hk, named_ok hdim hg hb hu (axis_evenly hn h2 hs) (List.mem_append_right _ List.mem_cons_self)]
    dsimp only
    rw [List.erase_append_right _ (fun h => Nat.lt_irrefl _ (hl _ h)), List.erase_cons_head]
    rw [ih dots _ (fun d hd => Nat.lt_succ_of_lt (hl d hd)) hj, List.append_assoc]
    rfl
  | @single i j o k names js xs nd b u hk hn hdim hg hb hu r ih =>
    intro dots l hl hj
    rw [List.length_cons, List.range'_succ] at hj ⊢
    obtain ⟨rfl, hj⟩ := List.cons.inj hj
    rw [axesLoop, if_neg hk, named_ok hdim hg hb hu (x := ⟨1, _, _, 1, _, _, true⟩) rfl (List.mem_append_right _ List.mem_cons_self)]
    dsimp only
    rw [List.erase_append_right _ (fun h => Nat.lt_irrefl _ (hl _ h)), List.erase_cons_head]
    rw [ih dots _ (fun d hd => Nat.lt_succ_of_lt (hl d hd)) hj, List.append_assoc]
    rfl

theorem rows_length {shape : List Nat} {a : Attrs} {kids : Kids} {i : Nat} {names : List Text} {js : List Nat} {xs : List Ax} (r : Rows shape a kids i names js xs) :
    xs.length = names.length ∧ js.length = names.length := by
  induction r <;> simp_all

theorem names_of {a : Attrs} {names : List Text} (h : Names a names) : ∃ v, getKw "axes".toList a = some v ∧ axesNames names.length v = .ok names := by
  rcases h with ⟨sh, h⟩ | ⟨sh, h, hc⟩
  · refine ⟨_, h, ?_⟩
    unfold axesNames
    dsimp only
    rw [List.take_length, Nat.sub_self]; simp
  · refine ⟨_, h, ?_⟩
    unfold axesNames
    dsimp only
    rw [List.take_length, Nat.sub_self]
    have : names.map clean = names := by
      conv_rhs => rw [← List.map_id names]
      exact List.map_congr_left fun k hk => clean_id (hc k hk).1 (hc k hk).2
    rw [this]; simp

theorem nav_list {shape : List Nat} {a : Attrs} {kids : Kids} {names : List Text} {js : List Nat} {xs : List Ax} (hn : Names a names) (hl : names.length = shape.length)
    (r : Rows shape a kids 0 names js xs) (hj : js = List.range names.length ∨ (['.'] ∉ names ∧ js.Nodup)) : navList shape a kids = .ok xs := by
  obtain ⟨v, h1, h2⟩ := names_of hn
  unfold navList
  rw [h1]
  simp only [bind, Except.bind]
  rw [← hl, h2]
  dsimp only
  rcases hj with hj | ⟨hd, hnd⟩
  · have := loop_dots r [] [] (fun d hd => absurd hd List.not_mem_nil) (by rw [hj, List.range_eq_range'])
    rw [List.range_eq_range', hl]
    rw [hl] at this
    exact this
  · refine loop_named r hd _ _ [] hnd fun j hj => ?_
    have hlt : ∀ {i : Nat} {names : List Text} {js : List Nat} {xs : List Ax}, Rows shape a kids i names js xs → ∀ j ∈ js, j < shape.length := by
      intro i names js xs r
      induction r with
      | nil => intro j hj; exact absurd hj List.not_mem_nil
      | dot hn _ ih =>
        intro j hj
        rcases List.mem_cons.1 hj with rfl | h
        · exact (List.getElem?_eq_some_iff.1 hn).1
        · exact ih j h
      | named _ hn _ _ _ _ _ _ _ ih =>
        intro j hj
        rcases List.mem_cons.1 hj with rfl | h
        · exact (List.getElem?_eq_some_iff.1 hn).1
        · exact ih j h
      | single _ hn _ _ _ _ _ ih =>
        intro j hj
        rcases List.mem_cons.1 hj with rfl | h
        · exact (List.getElem?_eq_some_iff.1 hn).1
        · exact ih j h
    rw [hl]
    exact List.mem_range.2 (hlt r j hj)

/-! ### Signal axes -/

theorem last_one {xs : List Ax} (h : 1 ≤ xs.length) : signalFromEnd 1 (xs.map fun x => { x with navigate := true }) = .ok (lastAxes 1 xs) := by
  unfold signalFromEnd lastAxes
  rw [List.length_map, if_pos h]
  congr 1
  apply List.ext_getElem?
  intro i
  rw [List.getElem?_modify, List.getElem?_mapIdx, List.getElem?_map]
  cases hx : xs[i]? with
  | none => rfl
  | some x =>
    have hi := (List.getElem?_eq_some_iff.1 hx).1
    simp only [Option.map_some, Option.map_eq_map]
    by_cases e : xs.length - 1 = i
    · rw [if_pos e, decide_eq_false (by omega)]
    · rw [if_neg e, decide_eq_true (by omega)]

theorem last_two {xs : List Ax} (h : 2 ≤ xs.length) : signalFromEnd 2 (lastAxes 1 xs) = .ok (lastAxes 2 xs) := by
  have hl : (lastAxes 1 xs).length = xs.length := by unfold lastAxes; simp
  unfold signalFromEnd
  rw [hl, if_pos h]
  congr 1
  apply List.ext_getElem?
  intro i
  unfold lastAxes
  rw [List.getElem?_modify, List.getElem?_mapIdx, List.getElem?_mapIdx]
  cases hx : xs[i]? with
  | none => rfl
  | some x =>
    have hi := (List.getElem?_eq_some_iff.1 hx).1
    simp only [Option.map_some, Option.map_eq_map]
    by_cases e : xs.length - 2 = i
    · rw [if_pos e, decide_eq_false (by omega)]
    · rw [if_neg e]
      have : decide (i + 1 < xs.length) = decide (i + 2 < xs.length) := by
        by_cases h3 : i + 2 < xs.length
        · rw [decide_eq_true h3, decide_eq_true (by omega)]
        · rw [decide_eq_false h3, decide_eq_false (by omega)]
      rw [this]

theorem marked_of {a : Attrs} {xs ys : List Ax} (h : Marked a xs ys) : interpret xs ((getKw "interpretation".toList a).map parseAttr) = .ok ys := by
  cases h with
  | asis h => rw [h]; rfl
  | spectrum h h1 =>
    rw [parse_says h (by decide) (by decide)]
    unfold interpret
    dsimp only
    rw [if_neg (by decide), if_pos rfl]
    exact last_one h1
  | image h h2 =>
    rw [parse_says h (by decide) (by decide)]
    unfold interpret
    dsimp only
    rw [if_neg (by decide), if_neg (by decide), if_pos rfl, last_one (by omega)]
    exact last_two h2

theorem signal_key {a : Attrs} {l : Kids} {v : Leaf} (s : SignalOf a l v) : ∃ k b, dataKey a l = .ok k ∧ kid k l = .ok (b, v) := by
  cases s with
  | text hs hn m b =>
    rename_i t n b'
    obtain ⟨e, he⟩ := not_int hn
    refine ⟨t, b', ?_, ?_⟩
    · unfold dataKey
      rcases hs with hs | hs <;> rw [hs] <;> simp only [he]
    · exact behind_kid m b
  | number hs m b =>
    rename_i q n b'
    refine ⟨"data".toList, b', ?_, behind_kid m b⟩
    unfold dataKey; rw [hs]

theorem signal_axes {x : Found} {v : Leaf} {l ys : List Ax} (s : SignalOf x.attrs x.kids v) (h1 : navList v.shape x.attrs x.kids = .ok l)
    (h2 : interpret (if l.isEmpty then plainAxes v.shape else l) ((getKw "interpretation".toList x.attrs).map parseAttr) = .ok ys) : nexusSignal x = .ok (v, ys) := by
  obtain ⟨k, b, e1, e2⟩ := signal_key s
  unfold nexusSignal
  simp only [bind, Except.bind, pure, Except.pure]
  rw [e1]; dsimp only
  rw [e2]; dsimp only
  rw [h1]; dsimp only
  rw [h2]

/-- **C123 (partial).** The axes of a NXdata group have the name, the size and the dimension that the file gives them; their scale and offset are the step and the
first value of their dataset, which are in equal steps and ascend, and their units those of the dataset; axes without name have only a size. The interpretation says
which axes are those of the signal. -/
theorem C123_axes_partial {om : Dict} {mk : Option (List Text)} {x : Found} {sig : Sig} {v : Leaf} {names : List Text} {js : List Nat} {xs ys : List Ax}
    (h : readNexus om mk x = .ok sig) (s : SignalOf x.attrs x.kids v) (hn : Names x.attrs names) (hl : names.length = v.shape.length) (h0 : names ≠ [])
    (r : Rows v.shape x.attrs x.kids 0 names js xs) (hj : js = List.range names.length ∨ (['.'] ∉ names ∧ js.Nodup)) (hm : Marked x.attrs xs ys) : sig.axes = ys := by
  obtain ⟨_, ⟨l, h1, h2⟩, _⟩ := nexus_signal h
  have hne : xs.isEmpty = false := by
    have := (rows_length r).1
    cases xs with
    | nil => exact absurd (List.length_eq_zero_iff.1 this.symm) h0
    | cons => rfl
  have := signal_axes s (nav_list hn hl r hj) (by rw [hne]; exact marked_of hm)
  rw [this] at h1
  rw [h2]
  exact (Prod.mk.inj (Except.ok.inj h1)).2.symm

/-- **C123.** Without names of axes each dimension is an axis with its size and without calibration. -/
theorem C123_plain {om : Dict} {mk : Option (List Text)} {x : Found} {sig : Sig} {v : Leaf} {ys : List Ax}
    (h : readNexus om mk x = .ok sig) (s : SignalOf x.attrs x.kids v) (hn : getKw "axes".toList x.attrs = none)
    (hm : Marked x.attrs (v.shape.mapIdx fun i n => ⟨n, i, none, 1, 0, some (.str []), true⟩) ys) : sig.axes = ys := by
  obtain ⟨_, ⟨l, h1, h2⟩, _⟩ := nexus_signal h
  have e : plainAxes v.shape = v.shape.mapIdx fun i n => ⟨n, i, none, 1, 0, some (.str []), true⟩ := by
    unfold plainAxes
    apply List.ext_getElem?
    intro i
    rw [List.getElem?_map, List.getElem?_mapIdx, List.getElem?_zipIdx]
    cases v.shape[i]? <;> simp
  have h3 : navList v.shape x.attrs x.kids = .ok [] := by unfold navList; rw [hn]
  have := signal_axes s h3 (by rw [List.isEmpty_nil, if_pos rfl, e]; exact marked_of hm)
  rw [this] at h1
  rw [h2]
  exact (Prod.mk.inj (Except.ok.inj h1)).2.symm

end Verif.Props.Nexus
