import Verif.Model.Edax
import Verif.Spec.Edax
import Mathlib.Data.String.Basic
namespace Verif.Edax

/-- Position and type of a field. -/
def locate : List Field → String → Nat → Option (Nat × Field)
  | [], _, _ => none
  | fd :: fs, name, pos => if name == fd.name then some (pos, fd) else locate fs name (pos + fd.size)

theorem decode_lookup (big : Bool) (name : String) (f : Bytes) : ∀ (fs : List Field) (pos : Nat), (decodeFields big fs (f.drop pos)).lookup name =
    (locate fs name pos).map fun e => e.2.values big ((f.drop e.1).take e.2.size)
  | [], _ => rfl
  | fd :: fs, pos => by
    unfold decodeFields locate
    rw [List.lookup_cons]
    cases h : name == fd.name
    · simp only [List.drop_drop, Bool.false_eq_true, if_false]
      exact decode_lookup big name f fs (pos + fd.size)
    · simp

theorem locate_append {name : String} {e : Nat × Field} (gs : List Field) : ∀ {fs : List Field} {pos : Nat}, locate fs name pos = some e → locate (fs ++ gs) name pos = some e
  | [], _, h => by cases h
  | fd :: fs, pos, h => by
    unfold locate at h ⊢
    rw [List.cons_append]
    dsimp only
    split
    · rename_i hn
      rw [if_pos hn] at h
      exact h
    · rename_i hn
      rw [if_neg hn] at h
      exact locate_append gs h

theorem fieldVal_stored (big : Bool) (f : Bytes) (pos w : Nat) : fieldVal big ((f.drop pos).take w) = stored big f pos w := by
  cases big <;> rfl

theorem stored_take (big : Bool) (f : Bytes) (pos w : Nat) : stored big ((f.drop pos).take w) 0 w = stored big f pos w := by simp [stored, List.take_take]

/-- A header that knows a field gives what is stored there. -/
theorem number_int {big : Bool} {fs : List Field} {f : Bytes} {name : String} {pos w : Nat} (h : locate fs name 0 = some (pos, ⟨name, .int, w, 1⟩)) :
    number (decodeFields big fs f) name = .ok (storedInt big f pos w) := by
  have := decode_lookup big name f fs 0
  rw [List.drop_zero, h] at this
  unfold number
  rw [this]
  simp [Field.values, Field.size, conv, fieldVal_stored, storedInt, stored_take]

theorem number_uint {big : Bool} {fs : List Field} {f : Bytes} {name : String} {pos w : Nat} (h : locate fs name 0 = some (pos, ⟨name, .uint, w, 1⟩)) :
    number (decodeFields big fs f) name = .ok (stored big f pos w : Int) := by
  have := decode_lookup big name f fs 0
  rw [List.drop_zero, h] at this
  unfold number
  rw [this]
  simp [Field.values, Field.size, conv, fieldVal_stored, stored_take]

theorem float_ok {big : Bool} {fs : List Field} {f : Bytes} {name : String} {pos : Nat} (h : locate fs name 0 = some (pos, ⟨name, .flt, 4, 1⟩)) :
    float (decodeFields big fs f) name = .ok (storedFloat big f pos) := by
  have := decode_lookup big name f fs 0
  rw [List.drop_zero, h] at this
  unfold float
  rw [this]
  simp [Field.values, Field.size, conv, fieldVal_stored, storedFloat, stored_take]

theorem values_uint {big : Bool} {fs : List Field} {f : Bytes} {name : String} {pos w c : Nat} (h : locate fs name 0 = some (pos, ⟨name, .uint, w, c⟩)) :
    values (decodeFields big fs f) name = .ok ((List.range c).map fun k => (stored big f (pos + k * w) w : Int)) := by
  have := decode_lookup big name f fs 0
  rw [List.drop_zero, h] at this
  unfold values
  rw [this]
  simp only [Option.map_some, Field.values, Field.size, conv, reduceCtorEq, if_false]
  congr 1
  apply List.map_congr_left
  intro k hk
  have hk' : k < c := List.mem_range.1 hk
  congr 1
  rw [← fieldVal_stored, List.drop_take, List.drop_drop, List.take_take]
  have : (k + 1) * w ≤ c * w := Nat.mul_le_mul_right w hk'
  rw [Nat.succ_mul] at this
  rw [Nat.min_eq_left]
  rw [Nat.mul_comm w c]
  omega

/-- The positions of the fields that are used. -/
structure Layout (fs : List Field) : Prop where
  dataStart : locate fs "dataStart" 0 = some (28, ⟨"dataStart", .int, 4, 1⟩)
  numPts : locate fs "numPts" 0 = some (32, ⟨"numPts", .int, 2, 1⟩)
  evPerChan : locate fs "evPerChan" 0 = some (384, ⟨"evPerChan", .int, 4, 1⟩)
  startEnergy : locate fs "startEnergy" 0 = some (448, ⟨"startEnergy", .flt, 4, 1⟩)
  liveTime : locate fs "liveTime" 0 = some (456, ⟨"liveTime", .flt, 4, 1⟩)
  tilt : locate fs "tilt" 0 = some (460, ⟨"tilt", .flt, 4, 1⟩)
  detReso : locate fs "detReso" 0 = some (472, ⟨"detReso", .flt, 4, 1⟩)
  azimuth : locate fs "azimuth" 0 = some (508, ⟨"azimuth", .flt, 4, 1⟩)
  elevation : locate fs "elevation" 0 = some (512, ⟨"elevation", .flt, 4, 1⟩)
  kV : locate fs "kV" 0 = some (532, ⟨"kV", .flt, 4, 1⟩)
  numElem : locate fs "numElem" 0 = some (638, ⟨"numElem", .int, 2, 1⟩)
  at_ : locate fs "at" 0 = some (640, ⟨"at", .uint, 2, 48⟩)

theorem layout_short : Layout spcShort := by constructor <;> decide +kernel

theorem layout_full : Layout spcFull := by constructor <;> decide +kernel

theorem Layout.append {fs : List Field} (h : Layout fs) (gs : List Field) : Layout (fs ++ gs) where
  dataStart := locate_append gs h.dataStart
  numPts := locate_append gs h.numPts
  evPerChan := locate_append gs h.evPerChan
  startEnergy := locate_append gs h.startEnergy
  liveTime := locate_append gs h.liveTime
  tilt := locate_append gs h.tilt
  detReso := locate_append gs h.detReso
  azimuth := locate_append gs h.azimuth
  elevation := locate_append gs h.elevation
  kV := locate_append gs h.kV
  numElem := locate_append gs h.numElem
  at_ := locate_append gs h.at_

theorem layout_fields (loadAll : Bool) (v : Nat) : Layout (spcFields loadAll v) := by
  unfold spcFields
  cases loadAll
  · exact layout_short
  · exact layout_full.append _

theorem size_short : (spcShort.map Field.size).sum = 20740 := by decide +kernel
theorem size_full : (spcFull.map Field.size).sum = 20736 := by decide +kernel
theorem size_ext : (spcExt.map Field.size).sum = 258 := by decide +kernel

theorem spcHeader_ok {big loadAll : Bool} {f : Bytes} (h : SpcComplete big loadAll f) : ∃ fs, Layout fs ∧ spcHeader big loadAll f = .ok (decodeFields big fs f) := by
  refine ⟨_, layout_fields loadAll (fieldVal big (f.take 4)), ?_⟩
  have h4 : ¬ f.length < 4 := by rcases h with ⟨_, h⟩ | ⟨_, h | ⟨h, _⟩⟩ <;> omega
  unfold spcHeader header
  rw [if_neg h4, if_neg]
  rcases h with ⟨rfl, h⟩ | ⟨rfl, h⟩
  · simp only [spcFields, Bool.false_eq_true, if_false, size_short]
    omega
  · simp only [spcFields, if_true, List.map_append, List.sum_append, size_full]
    have hv : fieldVal big (f.take 4) = stored big f 0 4 := by
      rw [← fieldVal_stored, List.drop_zero]
    split
    · rename_i hr
      rw [size_ext]
      rcases h with h | ⟨h, hs⟩
      · omega
      · exfalso
        rw [hv] at hr
        have : roundEven (100 * f32Dec (stored big f 0 4)) ≤ 69 := by
          apply roundEven_le_int
          unfold storedFloat at hs
          push_cast
          linarith
        omega
    · simp only [List.map_nil, List.sum_nil]
      omega

theorem element_table : ∀ n < 111, elementNames.lookup (n + 1) = some (symbols.getD n "") := by decide +kernel

theorem elementName_ok {z : Nat} (h1 : 1 ≤ z) (h2 : z ≤ 111) : elementName (z : Int) = .ok (symbol z) := by
  have := element_table (z - 1) (by omega)
  rw [show z - 1 + 1 = z by omega] at this
  unfold elementName symbol
  rw [Int.toNat_natCast, this]
  simp

theorem mapM_elements {g : Nat → Nat} : ∀ {l : List Nat}, (∀ k ∈ l, 1 ≤ g k ∧ g k ≤ 111) → (l.map fun k => (g k : Int)).mapM elementName = .ok (l.map fun k => symbol (g k))
  | [], _ => rfl
  | a :: l, h => by
    rw [List.map_cons, List.mapM_cons, elementName_ok (h a (by simp)).1 (h a (by simp)).2, mapM_elements fun k hk => h k (List.mem_cons_of_mem _ hk)]
    rfl

theorem sortNames_spec (l : List String) : (sortNames l).Pairwise (fun a b => a ≤ b) ∧ (sortNames l).Perm l := by
  refine ⟨?_, List.mergeSort_perm _ _⟩
  have := List.pairwise_mergeSort (le := fun (a b : String) => decide (a ≤ b)) (fun a b c h1 h2 => by simp only [decide_eq_true_eq] at *; exact le_trans h1 h2)
    (fun a b => by simp only [Bool.or_eq_true, decide_eq_true_eq]; exact le_total a b) l
  exact this.imp fun h => by simpa using h

theorem elements_ok {big : Bool} {fs : List Field} (hl : Layout fs) {f : Bytes} (hk : KnownElements big f) : ∃ r, elements (decodeFields big fs f) = .ok r ∧ Elements big f r := by
  unfold elements Elements
  rw [number_int hl.numElem]
  simp only [bind, Except.bind]
  by_cases h0 : storedInt big f 638 2 ≤ 0
  · rw [if_neg (by omega)]
    exact ⟨none, rfl, by rw [if_pos h0]⟩
  · rw [if_pos (by omega), values_uint hl.at_]
    simp only []
    have : List.take (storedInt big f 638 2).toNat ((List.range 48).map fun k => (stored big f (640 + k * 2) 2 : Int)) =
        (List.range (min (storedInt big f 638 2).toNat 48)).map fun k => ((stored big f (640 + 2 * k) 2 : Nat) : Int) := by
      rw [← List.map_take, List.take_range]
      simp only [Nat.mul_comm]
    rw [this, mapM_elements fun k hk' => hk k (by have := List.mem_range.1 hk'; omega) (by have := List.mem_range.1 hk'; omega)]
    exact ⟨_, rfl, by rw [if_neg h0]; exact ⟨_, rfl, sortNames_spec _⟩⟩

/-- The metadata are the numbers at the documented positions. -/
structure MetaOk (big : Bool) (f : Bytes) (md : Meta) : Prop where
  azimuth : md.azimuth = storedFloat big f 508
  elevation : md.elevation = storedFloat big f 512
  resolution : md.resolution = storedFloat big f 472
  liveTime : md.liveTime = storedFloat big f 456
  energy : md.energy = storedFloat big f 532
  tilt : md.tilt = storedFloat big f 460
  elements : Elements big f md.elements

theorem meta_ok {big : Bool} {fs : List Field} (hl : Layout fs) {f : Bytes} (hk : KnownElements big f) : ∃ md, spcMeta (decodeFields big fs f) = .ok md ∧ MetaOk big f md := by
  obtain ⟨r, h1, h2⟩ := elements_ok hl hk
  unfold spcMeta
  rw [float_ok hl.azimuth, float_ok hl.elevation, float_ok hl.detReso, float_ok hl.liveTime, float_ok hl.kV, float_ok hl.tilt, h1]
  exact ⟨_, rfl, ⟨rfl, rfl, rfl, rfl, rfl, rfl, h2⟩⟩

theorem fromfile_ok {big : Bool} {w off n : Nat} {f : Bytes} (hw : 0 < w) (h : off + n * w ≤ f.length) : fromfile big w off (n : Int) f = (List.range n).map fun k => stored big f (off + k * w) w := by
  have : n ≤ (f.length - off) / w := (Nat.le_div_iff_mul_le hw).2 (by omega)
  unfold fromfile
  dsimp only
  rw [if_neg (by omega), Int.toNat_natCast, Nat.min_eq_left this]
  simp only [fieldVal_stored]

theorem memmap_ok {big : Bool} {w off n : Nat} {f : Bytes} (h : off + n * w ≤ f.length) : memmap big w off n f = .ok ((List.range n).map fun k => stored big f (off + k * w) w) := by
  unfold memmap
  rw [if_neg (by omega)]
  simp only [fieldVal_stored]

/-- The energy axis of a map, with and without an `.spc` file. -/
def energy (big : Bool) (spc : Option Bytes) (nz : Nat) : Axis := match spc with
  | none => ⟨nz, -1, "Energy", 1, 1, none, false⟩
  | some g => ⟨nz, -1, "Energy", (storedInt big g 384 4 : Rat) / 1000, storedFloat big g 448, some "keV", false⟩

/-! ### Paths -/

theorem takeWhile_tail {p : Char → Bool} {a : Text} {c : Char} {name : Text} (hc : p c = false) (hn : ∀ x ∈ name, p x = true) : ((a ++ c :: name).reverse.takeWhile p).reverse = name := by
  rw [List.reverse_append, List.reverse_cons, List.append_assoc, List.takeWhile_append_of_pos (fun x hx => hn x (List.mem_reverse.1 hx))]
  simp [hc]

theorem takeWhile_all' {p : Char → Bool} {name : Text} (hn : ∀ x ∈ name, p x = true) : (name.reverse.takeWhile p).reverse = name := by
  have : ∀ l : Text, (∀ x ∈ l, p x = true) → l.takeWhile p = l := by
    intro l
    induction l with
    | nil => intro _; rfl
    | cons a l ih => intro h; rw [List.takeWhile_cons, if_pos (h a (by simp)), ih fun x hx => h x (List.mem_cons_of_mem _ hx)]
  rw [this _ fun x hx => hn x (List.mem_reverse.1 hx), List.reverse_reverse]

/-- The last component of a path. -/
theorem tail_of {pre name : Text} (hp : IsFolder pre) (hn : '/' ∉ name) : ((pre ++ name).reverse.takeWhile (· ≠ '/')).reverse = name := by
  have hne : ∀ x ∈ name, decide (x ≠ '/') = true := fun x hx => by
    simp only [ne_eq, decide_not, Bool.not_eq_eq_eq_not, Bool.not_true, decide_eq_false_iff_not]
    rintro rfl
    exact hn hx
  rcases hp with rfl | rfl | ⟨d, rfl, _, _⟩
  · exact takeWhile_all' hne
  · exact takeWhile_tail (a := []) (by decide) hne
  · rw [List.append_assoc]
    exact takeWhile_tail (by decide) hne

theorem rstrip_slash {d : Text} (hl : d.getLast? ≠ some '/') : rstripBy (fun c => decide (c = '/')) (d ++ ['/']) = d := by
  rw [rstripBy_append (by simp), rstripBy_id]
  intro c hc
  simp only [decide_eq_false_iff_not]
  rintro rfl
  exact hl hc

theorem splitPath_of {pre name : Text} (hp : IsFolder pre) (hn : '/' ∉ name) : (splitPath (pre ++ name)).2 = name ∧ ∀ x : Text, x.head? ≠ some '/' → joinPath (splitPath (pre ++ name)).1 x = pre ++ x := by
  unfold splitPath
  dsimp only
  rw [tail_of hp hn]
  refine ⟨rfl, fun x hx => ?_⟩
  have hh : (pre ++ name).take ((pre ++ name).length - name.length) = pre := by
    rw [List.length_append, Nat.add_sub_cancel, List.take_left]
  rw [hh]
  unfold joinPath
  rw [if_neg hx]
  rcases hp with rfl | rfl | ⟨d, rfl, hd, hl⟩
  · rfl
  · rfl
  · rw [rstrip_slash hl, if_neg hd, if_neg (by simp [hd, hl])]
    simp

theorem splitExt_of {pre stem ext : Text} (hp : IsFolder pre) (hs : '/' ∉ stem) (hd : ∃ c ∈ stem, c ≠ '.') (he : '/' ∉ ext) (he' : '.' ∉ ext) :
    splitExt (pre ++ (stem ++ '.' :: ext)) = (pre ++ stem, '.' :: ext) := by
  have hn : '/' ∉ stem ++ '.' :: ext := by simp [hs, he]
  unfold splitExt
  dsimp only
  rw [tail_of hp hn, if_pos (by simp)]
  have h1 : ((stem ++ '.' :: ext).reverse.takeWhile (· ≠ '.')).reverse = ext := takeWhile_tail (by decide) (fun x hx => by
    simp only [ne_eq, decide_not, Bool.not_eq_eq_eq_not, Bool.not_true, decide_eq_false_iff_not]
    rintro rfl
    exact he' hx)
  rw [h1]
  have h2 : (stem ++ '.' :: ext).take ((stem ++ '.' :: ext).length - ext.length - 1) = stem := by
    have : (stem ++ '.' :: ext).length - ext.length - 1 = stem.length := by simp; omega
    rw [this, List.take_left]
  have h3 : (pre ++ (stem ++ '.' :: ext)).take ((pre ++ (stem ++ '.' :: ext)).length - ext.length - 1) = pre ++ stem := by
    have : (pre ++ (stem ++ '.' :: ext)).length - ext.length - 1 = (pre ++ stem).length := by simp; omega
    rw [this, ← List.append_assoc, List.take_left]
  rw [h2, h3, if_neg]
  simp only [List.all_eq_true, decide_eq_true_eq, not_forall]
  obtain ⟨c, hc, hc'⟩ := hd
  exact ⟨c, hc, hc'⟩

theorem head_ne {stem t : Text} (hs : '/' ∉ stem) (hd : ∃ c ∈ stem, c ≠ '.') : (stem ++ t).head? ≠ some '/' := by
  cases stem with
  | nil => obtain ⟨c, hc, _⟩ := hd; simp at hc
  | cons a l =>
    simp only [List.cons_append, List.head?_cons, ne_eq, Option.some.injEq]
    rintro rfl
    simp at hs

theorem spcPath_of {pre stem ext : Text} (hp : IsFolder pre) (hs : '/' ∉ stem) (hd : ∃ c ∈ stem, c ≠ '.') (he : '/' ∉ ext) (he' : '.' ∉ ext) :
    spcPath (pre ++ (stem ++ '.' :: ext)) = pre ++ (stem ++ ".spc".toList) := by
  have hn : '/' ∉ stem ++ '.' :: ext := by simp [hs, he]
  unfold spcPath
  rw [(splitPath_of hp hn).1]
  have := splitExt_of (pre := []) (.inl rfl) hs hd he he'
  rw [List.nil_append, List.nil_append] at this
  rw [this, (splitPath_of hp hn).2 _ (head_ne hs hd)]

theorem iprPath_of {pre name bstem bext : Text} (hp : IsFolder pre) (hn : '/' ∉ name) (hs : '/' ∉ bstem) (hd : ∃ c ∈ bstem, c ≠ '.') (he : '/' ∉ bext) (he' : '.' ∉ bext) :
    iprPath (pre ++ name) (bstem ++ '.' :: bext) = pre ++ (bstem ++ ".ipr".toList) := by
  have hb : '/' ∉ bstem ++ '.' :: bext := by simp [hs, he]
  have h0 := (splitPath_of (pre := []) (.inl rfl) hb).1
  rw [List.nil_append] at h0
  unfold iprPath
  rw [h0]
  have := splitExt_of (pre := []) (.inl rfl) hs hd he he'
  rw [List.nil_append, List.nil_append] at this
  rw [this, (splitPath_of hp hn).2 _ (head_ne hs hd)]

/-! ### Spectrum images -/

theorem spd_size : (spdFields.map Field.size).sum = 1068 := by decide +kernel

theorem spd_header {big : Bool} {f : Bytes} (h : 1068 ≤ f.length) : header big spdFields f = .ok (decodeFields big spdFields f) := by
  unfold header
  rw [spd_size, if_neg (by omega)]

theorem loc_nx : locate spdFields "nPoints" 0 = some (24, ⟨"nPoints", .int, 4, 1⟩) := by decide +kernel
theorem loc_ny : locate spdFields "nLines" 0 = some (28, ⟨"nLines", .uint, 4, 1⟩) := by decide +kernel
theorem loc_nz : locate spdFields "nChannels" 0 = some (32, ⟨"nChannels", .uint, 4, 1⟩) := by decide +kernel
theorem loc_ns : locate spdFields "nSpectra" 0 = some (20, ⟨"nSpectra", .int, 4, 1⟩) := by decide +kernel
theorem loc_off : locate spdFields "dataOffset" 0 = some (40, ⟨"dataOffset", .uint, 4, 1⟩) := by decide +kernel
theorem loc_cb : locate spdFields "countBytes" 0 = some (36, ⟨"countBytes", .uint, 4, 1⟩) := by decide +kernel
theorem loc_name : locate spdFields "fName" 0 = some (48, ⟨"fName", .int, 1, 120⟩) := by decide +kernel
theorem loc_x : locate iprOld "mppX" 0 = some (64, ⟨"mppX", .flt, 4, 1⟩) := by decide +kernel
theorem loc_y : locate iprOld "mppY" 0 = some (68, ⟨"mppY", .flt, 4, 1⟩) := by decide +kernel
theorem ipr_size : (iprOld.map Field.size).sum = 252 := by decide +kernel
theorem ipr_ext : (iprExt.map Field.size).sum = 12 := by decide +kernel

theorem iprHeader_ok {big : Bool} {f : Bytes} (h : IprComplete big f) : ∃ hd, iprHeader big f = .ok hd ∧ float hd "mppX" = .ok (storedFloat big f 64) ∧ float hd "mppY" = .ok (storedFloat big f 68) := by
  unfold iprHeader header
  have hv : fieldVal big (f.take 2) = stored big f 0 2 := by rw [← fieldVal_stored, List.drop_zero]
  rw [if_neg (by rcases h with h | ⟨h, _⟩ <;> omega), if_neg]
  · exact ⟨_, rfl, float_ok (locate_append _ loc_x), float_ok (locate_append _ loc_y)⟩
  · rw [List.map_append, List.sum_append, ipr_size, hv]
    split
    · rename_i hc
      rw [ipr_ext]
      rcases h with h | ⟨h, h'⟩
      · omega
      · unfold storedInt at h'
        omega
    · simp only [List.map_nil, List.sum_nil]
      rcases h with h | ⟨h, h'⟩ <;> omega

theorem values_name {big : Bool} {f : Bytes} : values (decodeFields big spdFields f) "fName" = .ok ((List.range 120).map fun k => toSigned 1 (stored big f (48 + k) 1)) := by
  have := decode_lookup big "fName" f spdFields 0
  rw [List.drop_zero, loc_name] at this
  unfold values
  rw [this]
  simp only [Option.map_some, Field.values, Field.size, conv, reduceCtorEq, if_false, Nat.mul_one, Nat.one_mul]
  congr 1
  apply List.map_congr_left
  intro k hk
  have hk' : k < 120 := List.mem_range.1 hk
  congr 1
  rw [← fieldVal_stored, List.drop_take, List.drop_drop, List.take_take, Nat.min_eq_left (by omega)]

theorem stored_byte (big : Bool) (f : Bytes) (k : Nat) : stored big f k 1 = ((f[k]?).getD 0).toNat := by
  unfold stored
  by_cases h : k < f.length
  · have h1 : (f.drop k).take 1 = [f[k]] := by rw [List.drop_eq_getElem_cons h]; rfl
    dsimp only
    rw [h1]
    cases big <;> simp [leVal, List.getElem?_eq_getElem h]
  · rw [List.drop_of_length_le (by omega), List.getElem?_eq_none (by omega)]
    cases big <;> rfl

theorem bitmapName_ok {big : Bool} {f : Bytes} {name : Text} {k : Nat} (ha : ∀ c ∈ name, 0 < c.toNat ∧ c.toNat < 128)
    (h : (f.drop 48).take 120 = name.map (fun c => UInt8.ofNat c.toNat) ++ List.replicate k 0) (hl : 168 ≤ f.length) :
    bitmapName ((List.range 120).map fun k => toSigned 1 (stored big f (48 + k) 1)) = name := by
  have hlen : name.length + k = 120 := by
    have := congrArg List.length h
    simp only [List.length_take, List.length_drop, List.length_append, List.length_map, List.length_replicate] at this
    omega
  have h1 : ((List.range 120).map fun k => toSigned 1 (stored big f (48 + k) 1)) = name.map (fun c => (c.toNat : Int)) ++ List.replicate k 0 := by
    have h2 : ((List.range 120).map fun k => toSigned 1 (stored big f (48 + k) 1)) = ((f.drop 48).take 120).map fun b => toSigned 1 b.toNat := by
      apply List.ext_getElem
      · simp only [List.length_map, List.length_range, List.length_take, List.length_drop]; omega
      · intro i h1 h2
        simp only [List.length_map, List.length_range] at h1
        simp only [List.getElem_map, List.getElem_range, List.getElem_take, List.getElem_drop, stored_byte]
        rw [List.getElem?_eq_getElem (by omega)]
        rfl
    rw [h2, h, List.map_append, List.map_map, List.map_replicate]
    congr 1
    apply List.map_congr_left
    intro c hc
    have := ha c hc
    simp only [Function.comp_apply, UInt8.toNat_ofNat']
    rw [Nat.mod_eq_of_lt (by omega)]
    unfold toSigned
    rw [if_pos (by omega)]
  rw [h1]
  unfold bitmapName
  rw [List.reverse_append, List.reverse_replicate]
  have h3 : ∀ (m : Nat) (t : List Int), (∀ x ∈ t.head?, x ≠ 0) → (List.replicate m (0 : Int) ++ t).dropWhile (fun x => decide (x = 0)) = t := by
    intro m t ht
    induction m with
    | zero =>
      cases t with
      | nil => rfl
      | cons a t => simp [List.dropWhile_cons, ht a (by simp)]
    | succ m ih => rw [List.replicate_succ, List.cons_append, List.dropWhile_cons]; simpa using ih
  rw [h3]
  · rw [List.reverse_reverse, List.map_map]
    conv_rhs => rw [← List.map_id name]
    apply List.map_congr_left
    intro c hc
    have := ha c hc
    simp only [Function.comp_apply, id]
    rw [show ((c.toNat : Int) % 256).toNat = c.toNat by omega, Char.ofNat_toNat]
  · intro x hx
    rw [← List.map_reverse] at hx
    have : x ∈ name.reverse.map fun c => (c.toNat : Int) := List.mem_of_mem_head? hx
    obtain ⟨c, hc, rfl⟩ := List.mem_map.1 this
    have := ha c (List.mem_reverse.1 hc)
    omega

theorem countWidth_ok {w : Nat} (h : w = 1 ∨ w = 2 ∨ w = 4) : countWidth (w : Int) = .ok w := by
  rcases h with rfl | rfl | rfl <;> rfl

theorem mapData_ok {lazy big : Bool} {w off ny nx nz : Nat} {f : Bytes} (hw : w = 1 ∨ w = 2 ∨ w = 4) (h : off + ny * nx * nz * w ≤ f.length) :
    mapData lazy big w off ny nx nz f = .ok ((List.range (ny * nx * nz)).map fun k => stored (lazy && big) f (off + k * w) w) := by
  unfold mapData
  cases lazy
  · simp only [Bool.false_eq_true, if_false, Bool.false_and]
    rw [fromfile_ok (by omega) h]
    simp
  · simp only [if_true, Bool.true_and]
    exact memmap_ok h

theorem readSpc_ok {big loadAll : Bool} {spc : Option Bytes} (h : ∀ g, spc = some g → SpcComplete big loadAll g ∧ KnownElements big g) (nz : Nat) :
    ∃ hd md, readSpc big loadAll spc = .ok (hd, md) ∧ energyAxis hd nz = .ok (energy big spc nz) ∧ (∀ g, spc = some g → ∃ m, md = some m ∧ MetaOk big g m) ∧ (spc = none → md = none) := by
  cases spc with
  | none => exact ⟨none, none, rfl, rfl, fun g hg => (by cases hg), fun _ => rfl⟩
  | some g =>
    obtain ⟨h1, h2⟩ := h g rfl
    obtain ⟨fs, hl, hfs⟩ := spcHeader_ok h1
    obtain ⟨m, hm, hok⟩ := meta_ok hl h2
    refine ⟨some (decodeFields big fs g), some m, ?_, ?_, fun g' hg => ?_, fun h => by cases h⟩
    · unfold readSpc
      dsimp only
      rw [hfs]
      simp only [bind, Except.bind]
      rw [hm]
    · unfold energyAxis energy
      dsimp only
      rw [number_int hl.evPerChan, float_ok hl.startEnergy]
      rfl
    · cases hg
      exact ⟨m, rfl, hok⟩

/-! ### Line scans -/

theorem join_ne {cells : List Text} (h1 : cells ≠ []) (h2 : cells ≠ [[]]) : joinWith [','] cells ≠ [] := by
  cases cells with
  | nil => exact absurd rfl h1
  | cons a l =>
    cases l with
    | nil =>
      simp only [joinWith]
      rintro rfl
      exact h2 rfl
    | cons b l => simp [joinWith]

theorem csvRow_ok {cells : List Text} (h : CleanRow cells) : csvRow (joinWith [','] cells ++ ['\n']) = cells := by
  obtain ⟨h1, h2, h3⟩ := h
  have hn : ∀ x ∈ joinWith [','] cells, x ≠ '\n' := by
    intro x hx
    rcases mem_join hx with h | ⟨p, hp, h⟩
    · simp at h
      rw [h]
      decide
    · rintro rfl
      exact (h3 p hp).2.1 h
  have hf : (joinWith [','] cells ++ ['\n']).filter (· ≠ '\n') = joinWith [','] cells := by
    rw [List.filter_append, List.filter_eq_self.2 fun x hx => by simpa using hn x hx]
    simp
  unfold csvRow
  rw [hf]
  dsimp only
  rw [if_neg (join_ne h1 h2), splitChar_join h1 fun p hp => (h3 p hp).1]
  conv_rhs => rw [← List.map_id cells]
  apply List.map_congr_left
  intro c hc
  have := (h3 c hc).2.2.2
  cases c with
  | nil => rfl
  | cons a t =>
    rw [List.dropWhile_cons, if_neg]
    · rfl
    · simp only [List.head?_cons, ne_eq, Option.some.injEq] at this
      simpa using this

theorem find_col {names : List Text} {name : Text} {col : Nat} (h : ∀ j, names[j]? = some name ↔ j = col) : (List.range names.length).reverse.find? (fun i => decide (names[i]? = some name)) = some col := by
  have hc : col < names.length := by
    by_contra hc
    have := (h col).2 rfl
    rw [List.getElem?_eq_none (by omega)] at this
    cases this
  cases hf : (List.range names.length).reverse.find? (fun i => decide (names[i]? = some name)) with
  | none =>
    have := List.find?_eq_none.1 hf col (by simp [hc])
    simp [(h col).2 rfl] at this
  | some j =>
    have := List.find?_some hf
    simp only [decide_eq_true_eq] at this
    rw [(h j).1 this]

theorem distances_ok {num : Text → Option Rat} {names : List Text} {col : Nat} (h : ∀ j, names[j]? = some "Distance (nm)".toList ↔ j = col) : ∀ {rows : List (List Text)} {ds : List Rat},
    rows.map (fun r => (r[col]?).bind num) = ds.map some → rows.mapM (distance num names) = .ok ds
  | [], [], _ => rfl
  | [], _ :: _, h => by cases h
  | _ :: _, [], h => by cases h
  | r :: rows, d :: ds, hr => by
    rw [List.map_cons, List.map_cons, List.cons.injEq] at hr
    have h1 : distance num names r = .ok d := by
      unfold distance cell
      rw [find_col h]
      dsimp only
      cases hc : r[col]? with
      | none => rw [hc] at hr; simp at hr
      | some c =>
        rw [hc] at hr
        have hn : num c = some d := hr.1
        simp only [hn]
    rw [List.mapM_cons, h1, distances_ok h hr.2]
    rfl

theorem csv_ok {num : Text → Option Rat} {text : Text} {ds : List Rat} (h : DistanceTable num text ds) : csvCalibration num text = calibration ds := by
  obtain ⟨hdr, names, rows, col, h14, rfl, hh, hr, hcol, hds⟩ := h
  have hlines : fileLines (linesText (hdr ++ (names :: rows).map (joinWith [',']))) = (hdr ++ (names :: rows).map (joinWith [','])).map (· ++ ['\n']) := by
    apply fileLines_lines
    intro l hl
    rcases List.mem_append.1 hl with hl | hl
    · exact hh l hl
    · obtain ⟨r, hr', rfl⟩ := List.mem_map.1 hl
      have := (hr r hr').2.2
      constructor
      · intro hx
        rcases mem_join hx with h | ⟨p, hp, h⟩
        · simp at h
        · exact (this p hp).2.1 h
      · intro hx
        rcases mem_join hx with h | ⟨p, hp, h⟩
        · simp at h
        · exact (this p hp).2.2.1 h
  unfold csvCalibration
  rw [hlines]
  dsimp only
  rw [if_neg (by simp only [List.length_map, List.length_append]; omega), ← List.map_drop, List.drop_left' h14, List.map_map, List.map_map]
  have : (names :: rows).map ((csvRow ∘ fun x => x ++ ['\n']) ∘ joinWith [',']) = names :: rows := by
    conv_rhs => rw [← List.map_id (names :: rows)]
    apply List.map_congr_left
    intro r hr'
    exact csvRow_ok (hr r hr')
  rw [this]
  dsimp only
  rw [List.filter_eq_self.2 fun r hr' => by simpa using (hr r (List.mem_cons_of_mem _ hr')).1, distances_ok hcol hds]

theorem csvPath_of {pre stem ext : Text} (hp : IsFolder pre) (hs : '/' ∉ stem) (hd : ∃ c ∈ stem, c ≠ '.') (he : '/' ∉ ext) (he' : '.' ∉ ext) :
    csvPath (pre ++ (stem ++ '.' :: ext)) = if pre.head? = some '/' then pre ++ (stem ++ ".csv".toList) else pre ++ (pre ++ (stem ++ ".csv".toList)) := by
  have hn : '/' ∉ stem ++ '.' :: ext := by simp [hs, he]
  unfold csvPath
  rw [splitExt_of hp hs hd he he']
  dsimp only
  split
  · rename_i h
    unfold joinPath
    rw [if_pos (by cases pre with | nil => cases h | cons a l => simpa using h), List.append_assoc]
  · rename_i h
    rw [(splitPath_of hp hn).2, List.append_assoc]
    cases pre with
    | nil => exact head_ne hs hd
    | cons a l => simpa using h

end Verif.Edax
