import Verif.Lemmas.JeolEds
/-! C126: spectra of JEOL (`.eds`). -/
namespace Verif.Props.JeolEds
open Verif Verif.JeolTree Verif.JeolEds

/-- C126: for every `.eds` file, whatever the numbers of counts, excluded elements, selected elements, lines and results of the
quantification: the counts are those of the file in their order; scale and offset of the energy axis, dead time, live time and the
parameters of the detector are those at their places; elements, lines and results are those of the file. Missing from the claim that
every file is read: files without parameters, elements without lines and names of more than 127 bytes (see the counterexamples). -/
theorem C126_file_partial (enc : Text → List UInt8) (dec : List UInt8 → Option Text) (dbl : Nat → Rat) (x : File)
    (name user state tpl detT : Text) (h : GoodFile enc dec x name user state tpl detT) :
    ∃ s, readEds dec dbl (fileBytes enc x) = .ok s ∧
      s.data = x.counts ∧ s.size = x.counts.length ∧ s.scale = dbl (at8 x.head 362) ∧ s.offset = dbl (at8 x.head 370) ∧
      s.header = ⟨at8 x.head 10, name, user, at8 x.head 258, at8 x.head 266, at8 x.head 274, at8 x.head 282, at8 x.head 362,
        at8 x.head 370, state, tpl, x.counts.length⟩ ∧
      s.liveTime = dbl (at8 x.head 258) ∧ s.beamEnergy = dbl (at8 x.params 48) ∧ s.resolution = dbl (at8 x.params 102) ∧
      s.azimuth = dbl (at8 x.params 180) ∧ s.elevation = dbl (at8 x.params 196) ∧ s.detector = detT ∧
      (dbl (at8 x.params 48) ≤ 30 → s.mode = "SEM".toList ∧ s.signalType = "EDS_SEM".toList) ∧
      (30 < dbl (at8 x.params 48) → s.mode = "TEM".toList ∧ s.signalType = "EDS_TEM".toList) ∧
      s.excluded = present id x.excluded ∧ s.selected = present elemEntry x.elems ∧ s.quanti = present quantEntry x.quants := by
  have e1 := header_spec dec x.head (x.counts.flatMap (fun c => leBytes 4 (ofSigned 4 c)) ++ (x.pad ++
    (leBytes 4 x.excluded.length ++ (x.excluded.flatMap (leBytes 2) ++ (leBytes 4 x.elems.length ++ (x.elems.flatMap (elemBytes enc) ++
      (leBytes 4 x.quants.length ++ ((if x.quants = [] then [] else x.qpad) ++ (x.quants.flatMap (quantBytes enc) ++
        (leBytes 4 5 ++ (x.params ++ x.rest))))))))))) x.counts.length name user state tpl h.head h.nCounts h.name h.user h.state h.tpl
  have e2 : ∀ r, counts (x.counts.length : Nat) (x.counts.flatMap (fun c => leBytes 4 (ofSigned 4 c)) ++ r) = .ok (x.counts, r) := by
    intro r
    have hb := bind_items (w := 4) (l := x.counts.map (ofSigned 4)) (k := fun l => pure (l.map (toSigned 4))) (r := r) (by
      intro v hv
      obtain ⟨c, -, rfl⟩ := List.mem_map.1 hv
      exact ofSigned_lt 4 c)
    rw [List.length_map, List.flatMap_map] at hb
    unfold counts
    rw [hb, List.map_map]
    have : x.counts.map (toSigned 4 ∘ ofSigned 4) = x.counts := by
      conv => rhs; rw [← List.map_id x.counts]
      apply List.map_congr_left
      intro c hc
      exact toSigned_count (h.counts c hc)
    rw [this]
    rfl
  have e3 : ∀ r, excluded (x.pad ++ (leBytes 4 x.excluded.length ++ (x.excluded.flatMap (leBytes 2) ++ r))) =
      .ok (present id x.excluded, r) := by
    intro r
    unfold excluded
    rw [bind_skip h.pad, bind_num (show Fit 4 x.excluded.length by have := h.nExcluded; unfold Fit; omega), toSigned_small h.nExcluded]
    unfold present
    by_cases he : x.excluded = []
    · rw [if_pos he, if_neg (by rw [he]; simp), he]
      rfl
    · rw [if_neg he, if_pos (by intro hc; exact he (List.length_eq_zero_iff.1 (by omega))), bind_items h.excluded, List.map_id]
      rfl
  have e4 : ∀ r, selected dec (leBytes 4 x.elems.length ++ (x.elems.flatMap (elemBytes enc) ++ r)) =
      .ok (present elemEntry x.elems, r) := by
    intro r
    unfold selected
    rw [bind_num (show Fit 4 x.elems.length by have := h.nElems; unfold Fit; omega), toSigned_small h.nElems]
    unfold present
    by_cases he : x.elems = []
    · rw [if_pos he, if_neg (by rw [he]; simp), he]
      rfl
    · rw [if_neg he, if_pos (by intro hc; exact he (List.length_eq_zero_iff.1 (by omega))), Int.toNat_natCast,
        bind_ok (elems_spec enc dec x.elems none [] r h.elems (by simpa using h.elemNames))]
      rfl
  have e5 : ∀ r, quanti dec (leBytes 4 x.quants.length ++ ((if x.quants = [] then [] else x.qpad) ++ (x.quants.flatMap (quantBytes enc) ++ r))) =
      .ok (present quantEntry x.quants, r) := by
    intro r
    unfold quanti
    rw [bind_num (show Fit 4 x.quants.length by have := h.nQuants; unfold Fit; omega), toSigned_small h.nQuants]
    unfold present
    by_cases he : x.quants = []
    · rw [if_pos he, if_neg (by rw [he]; simp), he]
      rfl
    · have hq := h.qpad
      rw [if_neg he, if_neg he, if_pos (by intro hc; exact he (List.length_eq_zero_iff.1 (by omega))), Int.toNat_natCast,
        show x.qpad ++ (x.quants.flatMap (quantBytes enc) ++ r) = x.qpad.drop 0 ++ (x.quants.flatMap (quantBytes enc) ++ r) by rfl]
      repeat rw [bind_num_at (by omega)]
      rw [show x.qpad.drop (0 + 4 + 4 + 4 + 8 + 4 + 4) = [] from List.drop_eq_nil_of_le (by omega), List.nil_append,
        bind_ok (quants_spec enc dec x.quants [] r h.quants (by simpa using h.quantNames))]
      rfl
  have e6 : parameters dec (leBytes 4 5 ++ (x.params ++ x.rest)) =
      .ok (some ⟨detT, at8 x.params 48, at8 x.params 102, at8 x.params 154, at8 x.params 180, at8 x.params 196⟩, x.rest) := by
    unfold parameters
    have hl : (leBytes 4 5).length = 4 := leBytes_length 4 5
    rw [if_pos ⟨by rw [List.length_append]; omega, by rw [List.take_left' hl]; exact leVal_leBytes (by decide)⟩, List.drop_left' hl,
      params_spec dec x.params x.rest detT h.params h.detT h.texts]
  refine ⟨⟨x.counts, x.counts.length, dbl (at8 x.head 370), dbl (at8 x.head 362), mode (dbl (at8 x.params 48)), dbl (at8 x.params 48),
    dbl (at8 x.params 180), dbl (at8 x.params 196), dbl (at8 x.params 102), dbl (at8 x.head 258), detT,
    ['E', 'D', 'S', '_'] ++ mode (dbl (at8 x.params 48)),
    ⟨at8 x.head 10, name, user, at8 x.head 258, at8 x.head 266, at8 x.head 274, at8 x.head 282, at8 x.head 362, at8 x.head 370, state, tpl,
      x.counts.length⟩, present id x.excluded, present elemEntry x.elems, present quantEntry x.quants⟩, ?_, rfl, rfl, rfl, rfl, rfl, rfl, rfl, rfl, rfl, rfl, rfl, ?_, ?_,
    rfl, rfl, rfl⟩
  · unfold readEds fileBytes
    simp only [bind, Except.bind]
    rw [e1]
    dsimp only
    rw [e2]
    dsimp only
    rw [e3]
    dsimp only
    rw [e4]
    dsimp only
    rw [e5]
    dsimp only
    rw [e6]
  · intro hk
    unfold mode
    dsimp only
    rw [if_pos hk]
    exact ⟨rfl, rfl⟩
  · intro hk
    unfold mode
    dsimp only
    rw [if_neg (not_le.2 hk)]
    exact ⟨rfl, rfl⟩

def errOf {α : Type} : Py α → Option PyErr
  | .error e => some e
  | .ok _ => none

/-- Texts of ASCII characters. -/
def encA (t : Text) : List UInt8 := t.map fun c => UInt8.ofNat c.toNat
def decA (b : List UInt8) : Option Text := some (b.map fun c => Char.ofNat c.toNat)

def zeros (n : Nat) : List UInt8 := List.replicate n 0

/-- The lines of iron. -/
def ironLine (el name : String) : LineS := ⟨1, 6400, 26, el.toList, name.toList, 1⟩

def iron (ls : List LineS) : ElemS := ⟨2, 26, 1, 0, 630, 650, zeros 14, 6400, 0, 0, 0, "Fe".toList, 0, ls⟩

def copper (ls : List LineS) : ElemS := ⟨2, 29, 1, 0, 794, 815, zeros 14, 8040, 0, 0, 0, "Cu".toList, 0, ls⟩

/-- A file with three counts, `CoefA` 10 and `CoefB` 5 (as bits). -/
def small (es : List ElemS) : File :=
  ⟨zeros 362 ++ (leBytes 8 10 ++ (leBytes 8 5 ++ zeros 76)), [3, 1, 4], zeros 4, [86], es, zeros 28,
    [⟨2, 26, 1, 0, 6400, 0, 70, 1, 60, "FeO".toList, 65, 0, 999, 0, 0, 0, 0, 0⟩], zeros 48 ++ (leBytes 8 15 ++ zeros 284), []⟩

theorem small_text (k n : Nat) (b : List UInt8) (h : (b.drop k).take n = List.replicate n 0) : TextAt decA b k n [] :=
  ⟨[], ⟨n, by rw [h, List.nil_append]⟩, by simp, rfl⟩

example : GoodFile encA decA (small [iron [ironLine "Fe" "Ka", ironLine "Fe" "La"], copper [⟨1, 8040, 29, "Cu".toList, "Ka".toList, 0⟩]])
    [] [] [] [] [] where
  head := by decide +kernel
  name := small_text _ _ _ (by decide +kernel)
  user := small_text _ _ _ (by decide +kernel)
  state := small_text _ _ _ (by decide +kernel)
  tpl := small_text _ _ _ (by decide +kernel)
  nCounts := by decide
  counts := by unfold Small; decide +kernel
  pad := by decide
  nExcluded := by decide
  excluded := by unfold Fit; decide +kernel
  nElems := by decide
  elems := by
    intro e he
    simp only [small, List.mem_cons, List.not_mem_nil, or_false] at he
    rcases he with rfl | rfl
    · constructor
      case lines =>
        intro l hl
        simp only [iron, List.mem_cons, List.not_mem_nil, or_false] at hl
        rcases hl with rfl | rfl <;> constructor <;> first | (unfold Writes; decide +kernel) | (unfold Fit; decide +kernel) | (unfold Small; decide +kernel) | decide +kernel
      all_goals first | (unfold Writes; decide +kernel) | (unfold Fit; decide +kernel) | decide +kernel
    · constructor
      case lines =>
        intro l hl
        simp only [copper, List.mem_cons, List.not_mem_nil, or_false] at hl
        rcases hl with rfl
        constructor <;> first | (unfold Writes; decide +kernel) | (unfold Fit; decide +kernel) | (unfold Small; decide +kernel) | decide +kernel
      all_goals first | (unfold Writes; decide +kernel) | (unfold Fit; decide +kernel) | decide +kernel
  elemNames := by decide +kernel
  qpad := by decide
  nQuants := by decide
  quants := by
    intro q hq
    simp only [small, List.mem_cons, List.not_mem_nil, or_false] at hq
    rcases hq with rfl
    constructor <;> first | (unfold Writes; decide +kernel) | (unfold Fit; decide +kernel)
  quantNames := by decide +kernel
  params := by decide +kernel
  detT := small_text _ _ _ (by decide +kernel)
  texts := by
    intro k n hk
    simp only [List.mem_cons, List.not_mem_nil, or_false, Prod.mk.injEq] at hk
    rcases hk with ⟨rfl, rfl⟩ | ⟨rfl, rfl⟩ | ⟨rfl, rfl⟩ | ⟨rfl, rfl⟩ | ⟨rfl, rfl⟩ <;> exact ⟨[], small_text _ _ _ (by decide +kernel)⟩

/-- C126 fails for an element without lines: its atomic number is that of the last line of the element before it (copper becomes 26). -/
theorem C126_fails_no_lines : ((readEds decA (fun n => n) (fileBytes encA (small [iron [ironLine "Fe" "Ka"], copper []]))).toOption.bind
    (·.selected)).map (·.map fun e => (e.1, e.2.z)) = some [("Fe".toList, 26), ("Cu".toList, 26)] := by
  decide +kernel

/-- C126 fails for a first element without lines: the variable is not set, and the file cannot be read at all. -/
theorem C126_fails_first : errOf (readEds decA (fun n => n) (fileBytes encA (small [copper []]))) = some .nameError := by
  decide +kernel

/-- C126 fails for a file without parameters (another number than 5 after the results): `KeyError`, although the spectrum has been read. -/
theorem C126_fails_no_parameters : errOf (readEds decA (fun n => n) ((fileBytes encA (small [])).take 642 ++ (leBytes 4 4 ++ zeros 340))) =
    some .keyError := by
  decide +kernel

/-- C126 fails for names of more than 127 bytes: the length is read as a signed byte, and the name takes all that is left. -/
theorem C126_fails_long_name : errOf (readEds decA (fun n => n) (fileBytes encA
    (small [iron [⟨1, 6400, 26, List.replicate 200 'F', "Ka".toList, 1⟩]]))) = some .indexError := by
  decide +kernel

end Verif.Props.JeolEds
