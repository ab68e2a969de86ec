import Verif.Model.MrcFei
import Verif.Lemmas.MrcFile
import Mathlib.Tactic.NormNum
/-! C172: tilts, positions of the stage, exposure and magnification of MRC files of FEI. -/
namespace Verif.Props.MrcFei
open Verif Verif.MrcFile Verif.HeaderArray Verif.MrcFei

/-- The numbers of a record of the extended header, in the order of the format. -/
def quantities : List String :=
  ["a_tilt", "b_tilt", "x_stage", "y_stage", "z_stage", "x_shift", "y_shift", "defocus", "exp_time", "mean_int", "tilt_axis", "pixel_size", "magnification"]

/-- Where they are in the metadata, with their places in a record. -/
def places : List (String × Nat) :=
  [("Acquisition_instrument.TEM.Stage.tilt_alpha", 0), ("Acquisition_instrument.TEM.Stage.tilt_beta", 1), ("Acquisition_instrument.TEM.Stage.x", 2),
   ("Acquisition_instrument.TEM.Stage.y", 3), ("Acquisition_instrument.TEM.Stage.z", 4), ("Acquisition_instrument.TEM.Detector.Camera.exposure", 8),
   ("Acquisition_instrument.TEM.magnification", 12)]

/-- The list has, for every image that has a record, number `j` of its record. -/
def Lists (big : Bool) (b : List UInt8) (j : Nat) (e : Entry Rat) : Prop :=
  ∃ vs, e = .column vs ∧ vs.length = 1024 ∧ ∀ k < 1024, ∀ r, HasF big b (1024 + 128 * k + 4 * j) r → vs[k]? = some r

theorem record_size : recordSize = 128 := by decide

theorem record_count {b : List UInt8} (h : 1024 + 131072 ≤ b.length) : recordCount b = 1024 := by
  unfold recordCount
  rw [record_size]
  omega

theorem entry_many {α : Type} {l : List α} (h : l.length = 1024) : entryOf l = .column l := by
  match l, h with
  | [], h => cases h
  | [_], h => cases h
  | _ :: _ :: _, _ => rfl

theorem lists_column (big : Bool) (b : List UInt8) (j : Nat) : Lists big b j (entryOf (columnOf big b 1024 (4 * j))) := by
  have hl : (columnOf big b 1024 (4 * j)).length = 1024 := by simp [columnOf]
  refine ⟨_, entry_many hl, hl, fun k hk r hr => ?_⟩
  unfold columnOf
  rw [List.getElem?_map, List.getElem?_range hk, record_size]
  simp only [Option.map_some]
  rw [f4_of hr]

theorem all_lists {P : Nat → Entry Rat → Prop} {g : Nat → Entry Rat} (h : ∀ j, P j (g j)) : ∀ l : List (String × Nat),
    List.Forall₂ (fun p e => e.1 = p.1 ∧ P p.2 e.2) l (l.map fun e => (e.1, g e.2))
  | [] => .nil
  | e :: l => .cons ⟨rfl, h e.2⟩ (all_lists h l)

theorem positions : ((placed layout 0).filter fun e => e.1 ≠ "empty") = quantities.zipIdx.map fun e => (e.1, 4 * e.2) := by decide

theorem mapped (g : Nat → Entry Rat) : (mapping.filterMap fun m => ((quantities.zipIdx.map fun e => (e.1, g e.2)).find? fun e => e.1 = m.1).map
    fun e => (m.2, e.2)) = places.map fun e => (e.1, g e.2) := by rfl

/-- The whole extended header of a file. -/
theorem header_full (big : Bool) {b : List UInt8} (h : 1024 + 131072 ≤ b.length) :
    feiHeader big b 131072 = some (quantities.zipIdx.map fun e => (e.1, entryOf (columnOf big b 1024 (4 * e.2)))) := by
  unfold feiHeader
  rw [if_pos (by decide), record_count h, if_pos (by rw [record_size]), positions, List.map_map]
  rfl

theorem metadata_full (big : Bool) {b : List UInt8} (h : 1024 + 131072 ≤ b.length) :
    metadata big b 131072 = places.map fun e => (e.1, entryOf (columnOf big b 1024 (4 * e.2))) := by
  unfold metadata
  rw [header_full big h]
  exact mapped fun j => entryOf (columnOf big b 1024 (4 * j))

/-- C172: in a file with the extended header of FEI, in either byte order, the metadata have lists for tilts, positions, exposure and
magnification, and nothing else; every image finds the numbers of its record in them. -/
theorem C172_metadata_partial (big : Bool) {b : List UInt8} (h : 1024 + 131072 ≤ b.length) :
    List.Forall₂ (fun p e => e.1 = p.1 ∧ Lists big b p.2 e.2) places (metadata big b 131072) := by
  rw [metadata_full big h]
  exact all_lists (g := fun j => entryOf (columnOf big b 1024 (4 * j))) (lists_column big b) _

/-- C172: the original metadata have all thirteen numbers of the records. -/
theorem C172_original (big : Bool) {b : List UInt8} (h : 1024 + 131072 ≤ b.length) :
    ∃ d, feiHeader big b 131072 = some d ∧ List.Forall₂ (fun p e => e.1 = p.1 ∧ Lists big b p.2 e.2) quantities.zipIdx d := by
  exact ⟨_, header_full big h, all_lists (g := fun j => entryOf (columnOf big b 1024 (4 * j))) (lists_column big b) _⟩

/-- C172: the pixel size that calibrates the axes (C138) is the first of the list. -/
theorem C172_pixel (big : Bool) {b : List UInt8} {f : Header} (hf : f.next = 131072) (h : 1024 + 131072 ≤ b.length) :
    ∃ d vs p, feiHeader big b f.next = some d ∧ ("pixel_size", Entry.column vs) ∈ d ∧ vs[0]? = some p ∧ feiPixel big b f = some p := by
  have hl : (columnOf big b 1024 44).length = 1024 := by simp [columnOf]
  refine ⟨_, columnOf big b 1024 44, f4 big b 1068, by rw [hf]; exact header_full big h, ?_, ?_, fei_some hf (by rw [hf]; exact h)⟩
  · rw [← entry_many hl]
    exact List.mem_map.2 ⟨("pixel_size", 11), by decide, rfl⟩
  · unfold columnOf
    rw [List.getElem?_map, List.getElem?_range (by decide)]
    rfl

/-- C172: files without this header have none of it. -/
theorem C172_none (big : Bool) (b : List UInt8) {next : Nat} (h : next ≠ 131072) : feiHeader big b next = none ∧ metadata big b next = [] := by
  have e : feiHeader big b next = none := by
    unfold feiHeader
    rw [if_neg (by simpa using h)]
  exact ⟨e, by unfold metadata; rw [e]⟩

/-! ### A file -/

/-- Four bytes of a number. -/
def word (big : Bool) (n : Nat) : List UInt8 := if big then beBytes 4 n else leBytes 4 n

theorem word_length (big : Bool) (n : Nat) : (word big n).length = 4 := by cases big <;> rfl

theorem words_length (big : Bool) : ∀ ws : List Nat, (ws.flatMap (word big)).length = 4 * ws.length
  | [] => rfl
  | w :: ws => by
    rw [List.flatMap_cons, List.length_append, words_length big ws, word_length, List.length_cons]
    omega

theorem has_word {big : Bool} : ∀ {ws : List Nat} {i v : Nat}, ws[i]? = some v → v < 2 ^ 32 → Has4 big (ws.flatMap (word big)) (4 * i) v
  | w :: ws, 0, v, h, hv => by
    injection h with h
    subst h
    refine ⟨hv, ?_⟩
    rw [List.flatMap_cons, Nat.mul_zero, List.drop_zero, List.take_left' (word_length big w)]
    rfl
  | w :: ws, i + 1, v, h, hv => by
    rw [List.getElem?_cons_succ] at h
    obtain ⟨-, h2⟩ := has_word (big := big) h hv
    refine ⟨hv, ?_⟩
    rw [List.flatMap_cons, show 4 * (i + 1) = 4 + 4 * i by omega, ← List.drop_drop, List.drop_left' (word_length big w)]
    exact h2

/-- A header and 1024 records, where number `j` of record `k` is the single-precision number with the pattern `0x3F800000 + 32 k + j`. -/
def sample (big : Bool) : List UInt8 :=
  ((List.range 33024).map fun i => if i = 23 then 131072 else if i < 256 then 0 else 0x3F800000 + (i - 256)).flatMap (word big)

theorem sample_length (big : Bool) : (sample big).length = 1024 + 131072 := by
  unfold sample
  rw [words_length, List.length_map, List.length_range]

theorem sample_number (big : Bool) {k j : Nat} (hk : k < 1024) (hj : j < 32) :
    HasF big (sample big) (1024 + 128 * k + 4 * j) (f32Dec (0x3F800000 + 32 * k + j)) := by
  refine ⟨_, ?_, rfl⟩
  rw [show 1024 + 128 * k + 4 * j = 4 * (256 + 32 * k + j) by omega]
  refine has_word ?_ (by omega)
  rw [List.getElem?_map, List.getElem?_range (by omega)]
  simp only [Option.map_some]
  rw [if_neg (by omega), if_neg (by omega)]
  exact congrArg some (by omega)

/-- The tilt of the third image and the magnification of the last record. -/
example (big : Bool) : ∃ a m, ("Acquisition_instrument.TEM.Stage.tilt_alpha", Entry.column a) ∈ metadata big (sample big) 131072 ∧
    a[2]? = some (f32Dec 0x3F800040) ∧ ("Acquisition_instrument.TEM.magnification", Entry.column m) ∈ metadata big (sample big) 131072 ∧
    m[1023]? = some (f32Dec 0x3F807FEC) := by
  have h := C172_metadata_partial big (b := sample big) (by rw [sample_length])
  generalize metadata big (sample big) 131072 = l at h
  match l, h with
  | [e0, e1, e2, e3, e4, e5, e6], .cons ⟨n0, a, ha, _, h0⟩ (.cons _ (.cons _ (.cons _ (.cons _ (.cons _ (.cons ⟨n6, m, hm, _, h6⟩ .nil)))))) =>
    refine ⟨a, m, ?_, h0 2 (by decide) _ (sample_number big (k := 2) (j := 0) (by decide) (by decide)), ?_,
      h6 1023 (by decide) _ (sample_number big (k := 1023) (j := 12) (by decide) (by decide))⟩
    · exact List.mem_cons.2 (.inl (Prod.ext n0.symm ha.symm))
    · have : ("Acquisition_instrument.TEM.magnification", Entry.column m) = e6 := Prod.ext n6.symm hm.symm
      rw [this]
      simp

/-- A file without extended header. -/
example : metadata false (sample false) 0 = [] := (C172_none false _ (by decide)).2

/-- The lists always have 1024 numbers: the magnification of a single image is a list of 1024 numbers and not a number, whatever the number of images. -/
theorem C172_fails_single (big : Bool) {b : List UInt8} (h : 1024 + 131072 ≤ b.length) :
    ∃ vs, ("Acquisition_instrument.TEM.magnification", Entry.column vs) ∈ metadata big b 131072 ∧ vs.length = 1024 := by
  have hl : (columnOf big b 1024 48).length = 1024 := by simp [columnOf]
  refine ⟨columnOf big b 1024 48, ?_, hl⟩
  rw [metadata_full big h, ← entry_many hl]
  exact List.mem_map.2 ⟨("Acquisition_instrument.TEM.magnification", 12), by decide, rfl⟩

/-- A file that ends within the extended header loses all of it, also the records that are complete. -/
theorem C172_fails_cut (big : Bool) {b : List UInt8} (h : b.length < 1024 + 131072) : metadata big b 131072 = [] := by
  unfold metadata feiHeader
  rw [if_pos (by decide), if_neg]
  unfold recordCount
  rw [record_size]
  omega

/-- Positions of the stage are in metres in the file, and stay so: those of other formats are in millimetres (C151, C166). -/
theorem C172_fails_units (big : Bool) : ∃ vs, ("Acquisition_instrument.TEM.Stage.x", Entry.column vs) ∈ metadata big (sample big) 131072 ∧
    HasF big (sample big) (1024 + 4 * 2) (f32Dec 0x3F800002) ∧ vs[0]? = some (f32Dec 0x3F800002) ∧ vs[0]? ≠ some (f32Dec 0x3F800002 * 1000) := by
  have hs := sample_number big (k := 0) (j := 2) (by decide) (by decide)
  obtain ⟨vs, e, -, h⟩ := lists_column big (sample big) 2
  have h0 := h 0 (by decide) _ hs
  refine ⟨vs, ?_, hs, h0, ?_⟩
  · rw [metadata_full big (by rw [sample_length]), ← e]
    exact List.mem_map.2 ⟨("Acquisition_instrument.TEM.Stage.x", 2), by decide, rfl⟩
  · rw [h0]
    intro c
    injection c with c
    revert c
    decide +kernel

end Verif.Props.MrcFei
