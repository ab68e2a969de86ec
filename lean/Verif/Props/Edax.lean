import Verif.Lemmas.Edax
import Mathlib.Tactic.NormNum
import Verif.Py.Dec
/-!
C96: EDAX spectra. C97: spectrum images. C98: line scans.
-/
namespace Verif.Props.Edax
open Verif Verif.Edax

/-! ### C96: spectra -/

/-- **C96.** A spectrum is read channel by channel from where its header says, lazily or not, with the energy axis and the metadata of the documented positions; this does not depend on how much of the header is
read. -/
theorem C96_spectrum_partial {lazy big loadAll : Bool} {f : Bytes} {off n : Nat} (hc : SpcComplete big loadAll f) (ho : storedInt big f 28 4 = off) (hn : storedInt big f 32 2 = n)
    (hfit : off + n * 4 ≤ f.length) (hk : KnownElements big f) : ∃ r md, spcReader lazy big loadAll f = .ok r ∧ r.shape = [n] ∧
      r.data = ((List.range n).map fun k => stored big f (off + k * 4) 4) ∧
      r.axes = [⟨n, 0, "Energy", (storedInt big f 384 4 : Rat) / 1000, storedFloat big f 448, some "keV", false⟩] ∧
      r.spc = some md ∧ MetaOk big f md ∧ r.title = "EDS Spectrum" := by
  obtain ⟨fs, hl, hfs⟩ := spcHeader_ok hc
  obtain ⟨md, hmd, hok⟩ := meta_ok hl hk
  have hd : spcData lazy big (off : Int) (n : Int) f = .ok ((List.range n).map fun k => stored big f (off + k * 4) 4) := by
    unfold spcData
    rw [if_neg (by omega)]
    cases lazy
    · simp only [Bool.false_eq_true, if_false, Int.toNat_natCast]
      rw [fromfile_ok (by omega) hfit]
    · simp only [if_true, Int.toNat_natCast]
      rw [if_neg (by omega), memmap_ok hfit]
  unfold spcReader
  rw [hfs]
  simp only [bind, Except.bind]
  rw [number_int hl.numPts, number_int hl.dataStart, hn, ho]
  simp only []
  rw [hd]
  simp only []
  rw [number_int hl.evPerChan, float_ok hl.startEnergy, hmd]
  refine ⟨_, md, rfl, ?_, rfl, ?_, rfl, hok, rfl⟩ <;> simp

theorem meta_layout {big : Bool} {fs gs : List Field} (h1 : Layout fs) (h2 : Layout gs) (f : Bytes) : spcMeta (decodeFields big fs f) = spcMeta (decodeFields big gs f) := by
  unfold spcMeta elements
  rw [float_ok h1.azimuth, float_ok h1.elevation, float_ok h1.detReso, float_ok h1.liveTime, float_ok h1.kV, float_ok h1.tilt, number_int h1.numElem, values_uint h1.at_,
    float_ok h2.azimuth, float_ok h2.elevation, float_ok h2.detReso, float_ok h2.liveTime, float_ok h2.kV, float_ok h2.tilt, number_int h2.numElem, values_uint h2.at_]

/-- **C96.** Reading the complete header or the important parts of it makes no difference, whatever the file contains. -/
theorem C96_header {lazy big : Bool} {f : Bytes} (h : 20994 ≤ f.length) : spcReader lazy big true f = spcReader lazy big false f := by
  obtain ⟨fs, h1, hfs⟩ := spcHeader_ok (big := big) (loadAll := true) (f := f) (.inr ⟨rfl, .inl h⟩)
  obtain ⟨gs, h2, hgs⟩ := spcHeader_ok (big := big) (loadAll := false) (f := f) (.inl ⟨rfl, by omega⟩)
  unfold spcReader
  rw [hfs, hgs]
  simp only [bind, Except.bind]
  rw [number_int h1.numPts, number_int h1.dataStart, number_int h1.evPerChan, float_ok h1.startEnergy, meta_layout h1 h2,
    number_int h2.numPts, number_int h2.dataStart, number_int h2.evPerChan, float_ok h2.startEnergy]

/-- **C96.** The chemical symbols, by atomic number. -/
theorem C96_symbols {z : Nat} (h1 : 1 ≤ z) (h2 : z ≤ 111) : elementName (z : Int) = .ok (symbol z) := elementName_ok h1 h2

/-- A file that ends with the header of its version, before 0.70, cannot be loaded without `load_all_spc`: the short form of the header is four bytes longer than the complete one. -/
theorem C96_fails_old {lazy big : Bool} {f : Bytes} (h1 : 20736 ≤ f.length) (h2 : f.length < 20740) : spcReader lazy big false f = .error .typeError := by
  have : spcHeader big false f = .error .typeError := by
    unfold spcHeader header
    rw [if_neg (by omega)]
    simp only [spcFields, Bool.false_eq_true, if_false, size_short]
    rw [if_pos h2]
  unfold spcReader
  rw [this]
  rfl

/-- A file that is cut off within the spectrum is loaded without complaint, with fewer channels than it says. -/
theorem C96_fails_cut {big loadAll : Bool} {f : Bytes} {off n : Nat} (hc : SpcComplete big loadAll f) (ho : storedInt big f 28 4 = off) (hn : storedInt big f 32 2 = n) (hk : KnownElements big f)
    (hcut : f.length < off + n * 4) : ∃ r, spcReader false big loadAll f = .ok r ∧ r.data.length = (f.length - off) / 4 := by
  obtain ⟨fs, hl, hfs⟩ := spcHeader_ok hc
  obtain ⟨md, hmd, hok⟩ := meta_ok hl hk
  unfold spcReader
  rw [hfs]
  simp only [bind, Except.bind]
  rw [number_int hl.numPts, number_int hl.dataStart, hn, ho]
  simp only [spcData, Bool.false_eq_true, if_false]
  rw [if_neg (by omega), number_int hl.evPerChan, float_ok hl.startEnergy, hmd]
  refine ⟨_, rfl, ?_⟩
  simp only [fromfile, List.length_map, List.length_range, Int.toNat_natCast]
  rw [if_neg (by omega)]
  omega

/-- Lazily, such a file is rejected. -/
theorem C96_lazy_cut {big loadAll : Bool} {f : Bytes} {off n : Nat} (hc : SpcComplete big loadAll f) (ho : storedInt big f 28 4 = off) (hn : storedInt big f 32 2 = n)
    (hcut : f.length < off + n * 4) : spcReader true big loadAll f = .error .valueError := by
  obtain ⟨fs, hl, hfs⟩ := spcHeader_ok hc
  unfold spcReader
  rw [hfs]
  simp only [bind, Except.bind]
  rw [number_int hl.numPts, number_int hl.dataStart, hn, ho]
  simp only [spcData, if_true, memmap, Int.toNat_natCast]
  rw [if_neg (by omega), if_neg (by omega), if_pos hcut]

/-- Copernicium is named by a symbol it never had. -/
theorem C96_fails_symbol : elementName 112 = .ok "Cp" := by decide +kernel

/-! ### C97: spectrum images -/

/-- Byte order in which the counts are read. -/
theorem si_read {num : Text → Option Rat} {disk : Disk} {o : Options} {pre stem ext : Text} {f : Bytes} {ny nx nz w off : Nat} (hp : IsFolder pre) (hs : '/' ∉ stem) (hd : ∃ c ∈ stem, c ≠ '.')
    (he : '/' ∉ ext) (he' : '.' ∉ ext) (hfile : disk.bytes (pre ++ (stem ++ '.' :: ext)) = some f) (hf : SpdFile o.big f ny nx nz w off) (hfit : off + ny * nx * nz * w ≤ f.length)
    {spc : Option Bytes} (hspc : disk.bytes (o.spcName.getD (pre ++ (stem ++ ".spc".toList))) = spc) (hok : ∀ g, spc = some g → SpcComplete o.big o.loadAll g ∧ KnownElements o.big g) :
    ∃ md : Option Meta, (∀ g, spc = some g → ∃ m, md = some m ∧ MetaOk o.big g m) ∧ (spc = none → md = none) ∧ siReader num disk o (pre ++ (stem ++ '.' :: ext)) =
      (let data := (List.range (ny * nx * nz)).map fun k => stored (o.lazy && o.big) f (off + k * w) w
       if ('.' :: ext).map Char.toLower = ".lsd".toList then lineScan num (disk.text (o.csvName.getD (csvPath (pre ++ (stem ++ '.' :: ext))))) [ny, nx, nz] (storedInt o.big f 20 4) data (energy o.big spc nz) md
       else mapSignal o.big (disk.bytes (o.iprName.getD (iprPath (pre ++ (stem ++ '.' :: ext)) (bitmapName ((List.range 120).map fun k => toSigned 1 (stored o.big f (48 + k) 1)))))) ny nx nz data
        (energy o.big spc nz) md) := by
  obtain ⟨h, md, h1, h2, h3, h4⟩ := readSpc_ok (loadAll := o.loadAll) hok nz
  refine ⟨md, h3, h4, ?_⟩
  have hcond : (o.lazy && o.big) = (o.lazy && o.big) := rfl
  unfold siReader
  rw [hfile]
  simp only [bind, Except.bind]
  rw [spd_header hf.head]
  simp only []
  rw [number_int loc_nx, number_uint loc_ny, number_uint loc_nz, number_int loc_ns, number_uint loc_off, number_uint loc_cb, hf.points, hf.lines, hf.channels, hf.bytes, hf.start]
  simp only []
  rw [countWidth_ok hf.width]
  simp only []
  rw [if_neg (by omega)]
  simp only [Int.toNat_natCast]
  rw [mapData_ok hf.width hfit]
  simp only []
  rw [values_name, spcPath_of hp hs hd he he', hspc, h1]
  simp only []
  rw [h2]
  simp only []
  rw [splitExt_of hp hs hd he he']

/-- **C97.** A spectrum image is read count by count: lines, pixels, and channels follow each other from where the header says. The axes have the sizes of the header, the pixel sizes of the `.ipr` file that
belongs to the bitmap, and the energies of the `.spc` file of the same name. Big-endian files need `lazy`, unless counts are single bytes. -/
theorem C97_map_partial {num : Text → Option Rat} {disk : Disk} {o : Options} {pre stem bstem bext : Text} {f : Bytes} {ny nx nz w off pad : Nat} (hp : IsFolder pre) (hs : '/' ∉ stem) (hd : ∃ c ∈ stem, c ≠ '.')
    (hfile : disk.bytes (pre ++ (stem ++ ".spd".toList)) = some f) (hf : SpdFile o.big f ny nx nz w off) (hfit : off + ny * nx * nz * w ≤ f.length)
    (hb : '/' ∉ bstem) (hb' : ∃ c ∈ bstem, c ≠ '.') (hx : '/' ∉ bext) (hx' : '.' ∉ bext) (ha : ∀ c ∈ bstem ++ '.' :: bext, 0 < c.toNat ∧ c.toNat < 128)
    (hname : (f.drop 48).take 120 = (bstem ++ '.' :: bext).map (fun c => UInt8.ofNat c.toNat) ++ List.replicate pad 0)
    {spc ipr : Option Bytes} (hspc : disk.bytes (o.spcName.getD (pre ++ (stem ++ ".spc".toList))) = spc) (hok : ∀ g, spc = some g → SpcComplete o.big o.loadAll g ∧ KnownElements o.big g)
    (hipr : disk.bytes (o.iprName.getD (pre ++ (bstem ++ ".ipr".toList))) = ipr) (hiok : ∀ g, ipr = some g → IprComplete o.big g)
    (horder : o.lazy = true ∨ o.big = false ∨ w = 1) :
    ∃ r, fileReader num disk o (pre ++ (stem ++ ".spd".toList)) = .ok r ∧ r.shape = [ny, nx, nz] ∧ r.data.length = ny * nx * nz ∧
      (∀ y x c, y < ny → x < nx → c < nz → r.data[(y * nx + x) * nz + c]? = some (stored o.big f (off + ((y * nx + x) * nz + c) * w) w)) ∧
      (∃ ya xa ea, r.axes = [ya, xa, ea] ∧ (ya.size, ya.index, ya.name, ya.offset, ya.navigate) = (ny, 0, "y", 0, true) ∧ (xa.size, xa.index, xa.name, xa.offset, xa.navigate) = (nx, 1, "x", 0, true) ∧
        (∀ g, ipr = some g → (ya.scale, ya.units, xa.scale, xa.units) = (storedFloat o.big g 68, some "µm", storedFloat o.big g 64, some "µm")) ∧
        (ipr = none → (ya.scale, ya.units, xa.scale, xa.units) = (1, none, 1, none)) ∧
        (ea.size, ea.index, ea.name, ea.navigate) = (nz, -1, "Energy", false) ∧
        (∀ g, spc = some g → (ea.scale, ea.offset, ea.units) = ((storedInt o.big g 384 4 : Rat) / 1000, storedFloat o.big g 448, some "keV")) ∧
        (spc = none → (ea.scale, ea.units) = (1, none))) ∧
      (∀ g, spc = some g → ∃ m, r.spc = some m ∧ MetaOk o.big g m) ∧ (spc = none → r.spc = none) ∧ r.title = "EDS Spectrum Image" := by
  obtain ⟨md, h1, h2, h3⟩ := si_read (num := num) (ext := "spd".toList) hp hs hd (by decide) (by decide) hfile hf hfit hspc hok
  have hfr : fileReader num disk o (pre ++ (stem ++ ".spd".toList)) = siReader num disk o (pre ++ (stem ++ ".spd".toList)) := by
    unfold fileReader
    dsimp only
    rw [show ".spd".toList = '.' :: "spd".toList from rfl, splitExt_of hp hs hd (by decide) (by decide)]
    rfl
  rw [hfr]
  have hn : '/' ∉ stem ++ '.' :: "spd".toList := by
    rw [List.mem_append, not_or]
    exact ⟨hs, by decide⟩
  rw [bitmapName_ok ha hname (by have := hf.head; omega), iprPath_of hp hn hb hb' hx hx', hipr] at h3
  rw [show ".spd".toList = '.' :: "spd".toList from rfl, h3]
  dsimp only
  rw [if_neg (by decide)]
  have hdata : ∀ k, stored (o.lazy && o.big) f (off + k * w) w = stored o.big f (off + k * w) w := by
    intro k
    rcases horder with h | h | h
    · rw [h, Bool.true_and]
    · rw [h, Bool.and_false]
    · rw [h, stored_byte, stored_byte]
  simp only [hdata]
  have helem : ∀ y x c, y < ny → x < nx → c < nz → ((List.range (ny * nx * nz)).map fun k => stored o.big f (off + k * w) w)[(y * nx + x) * nz + c]? =
      some (stored o.big f (off + ((y * nx + x) * nz + c) * w) w) := by
    intro y x c hy hx hc
    have i1 : y * nx + x < ny * nx := by
      have := Nat.mul_le_mul_right nx hy
      rw [Nat.succ_mul] at this
      omega
    have i2 : (y * nx + x) * nz + c < ny * nx * nz := by
      have := Nat.mul_le_mul_right nz i1
      rw [Nat.succ_mul] at this
      omega
    rw [List.getElem?_map, List.getElem?_range i2]
    rfl
  have hen : (energy o.big spc nz).size = nz ∧ (energy o.big spc nz).index = -1 ∧ (energy o.big spc nz).name = "Energy" ∧ (energy o.big spc nz).navigate = false := by
    cases spc <;> exact ⟨rfl, rfl, rfl, rfl⟩
  have hes : ∀ g, spc = some g → ((energy o.big spc nz).scale, (energy o.big spc nz).offset, (energy o.big spc nz).units) = ((storedInt o.big g 384 4 : Rat) / 1000, storedFloat o.big g 448, some "keV") := by
    rintro g rfl
    rfl
  have heo : spc = none → ((energy o.big spc nz).scale, (energy o.big spc nz).units) = (1, none) := by
    rintro rfl
    rfl
  unfold mapSignal
  cases ipr with
  | none =>
    refine ⟨_, rfl, rfl, by simp, helem, ⟨_, _, _, rfl, rfl, rfl, fun g hg => (by cases hg), fun _ => rfl, ?_, hes, heo⟩, h1, h2, rfl⟩
    simp only [hen]
  | some g =>
    obtain ⟨hd', k1, k2, k3⟩ := iprHeader_ok (hiok g rfl)
    dsimp only
    simp only [bind, Except.bind]
    rw [k1]
    simp only []
    rw [k2, k3]
    refine ⟨_, rfl, rfl, by simp, helem, ⟨_, _, _, rfl, rfl, rfl, fun g' hg => (by cases hg; rfl), fun h => (by cases h), ?_, hes, heo⟩, h1, h2, rfl⟩
    simp only [hen]

/-- **C97.** A map that is cut short is rejected, never filled up. -/
theorem C97_short {num : Text → Option Rat} {disk : Disk} {o : Options} {filename : Text} {f : Bytes} {ny nx nz w off : Nat} (hfile : disk.bytes filename = some f) (hf : SpdFile o.big f ny nx nz w off)
    (hcut : f.length < off + ny * nx * nz * w) (hoff : off ≤ f.length) : siReader num disk o filename = .error .valueError := by
  have hm : mapData o.lazy o.big w off ny nx nz f = .error .valueError := by
    unfold mapData
    cases o.lazy
    · simp only [Bool.false_eq_true, if_false]
      rw [if_neg]
      simp only [fromfile, List.length_map, List.length_range, Int.toNat_natCast]
      rw [if_neg (by omega)]
      have : (f.length - off) / w < ny * nx * nz := by
        rw [Nat.div_lt_iff_lt_mul (by rcases hf.width with h | h | h <;> omega)]
        omega
      omega
    · simp only [if_true, memmap]
      rw [if_pos hcut]
  unfold siReader
  rw [hfile]
  simp only [bind, Except.bind]
  rw [spd_header hf.head]
  simp only []
  rw [number_int loc_nx, number_uint loc_ny, number_uint loc_nz, number_int loc_ns, number_uint loc_off, number_uint loc_cb, hf.points, hf.lines, hf.channels, hf.bytes, hf.start]
  simp only []
  rw [countWidth_ok hf.width]
  simp only []
  rw [if_neg (by omega)]
  simp only [Int.toNat_natCast]
  rw [hm]

/-- **C97.** Counts of other sizes than one, two or four bytes are rejected. -/
theorem C97_width {num : Text → Option Rat} {disk : Disk} {o : Options} {filename : Text} {f : Bytes} (hfile : disk.bytes filename = some f) (hlen : 1068 ≤ f.length)
    (hw : stored o.big f 36 4 ≠ 1 ∧ stored o.big f 36 4 ≠ 2 ∧ stored o.big f 36 4 ≠ 4) : siReader num disk o filename = .error .keyError := by
  unfold siReader
  rw [hfile]
  simp only [bind, Except.bind]
  rw [spd_header hlen]
  simp only []
  rw [number_int loc_nx, number_uint loc_ny, number_uint loc_nz, number_int loc_ns, number_uint loc_off, number_uint loc_cb]
  simp only []
  have : countWidth (stored o.big f 36 4 : Int) = .error .keyError := by
    unfold countWidth
    rw [if_neg (by omega), if_neg (by omega), if_neg (by omega)]
  rw [this]

/-- Without `lazy`, counts of big-endian maps are read in the order of the machine: two bytes `0, 1` are the count 256 instead of 1. -/
theorem C97_fails_big : mapData false true 2 0 1 1 1 [0, 1] = .ok [256] ∧ mapData true true 2 0 1 1 1 [0, 1] = .ok [1] := by decide +kernel

/-- Without an `.spc` file, the channels of a map are counted from 1, but its lines and pixels from 0. -/
theorem C97_fails_channels {big : Bool} {ny nx nz : Nat} {data : List Nat} {md : Option Meta} : ∃ ea r, energyAxis none nz = .ok ea ∧ mapSignal big none ny nx nz data ea md = .ok r ∧
    r.axes.map Axis.offset = [0, 0, 1] := ⟨_, _, rfl, rfl, rfl⟩

/-! ### C98: line scans -/

theorem squeeze_line {n nz ns : Nat} (h1 : n ≠ 1) (h2 : nz ≠ 1) (hns : ns ≤ n) {ny nx : Nat} (hshape : ny = 1 ∧ nx = n ∨ ny = n ∧ nx = 1) :
    squeezeSlice [ny, nx, nz] (ns : Int) = .ok ([ns, nz], ns * nz) := by
  have : [ny, nx, nz].filter (· ≠ 1) = [n, nz] := by
    rcases hshape with ⟨rfl, rfl⟩ | ⟨rfl, rfl⟩ <;> simp [h1, h2]
  unfold squeezeSlice
  rw [this]
  simp [Nat.min_eq_left hns]

theorem calibration_ok {ds : List Rat} {m : Nat} {a b : Rat} (h : ds = (List.range (m + 2)).map fun (k : Nat) => a + b * (k : Rat)) : calibration ds = .ok (a, b) := by
  have hr : List.range (m + 2) = 0 :: 1 :: (List.range m).map (· + 2) := by
    rw [List.range_succ_eq_map, List.range_succ_eq_map]
    simp [Function.comp_def]
  rw [h, hr]
  simp only [List.map_cons, calibration]
  rw [show a + b * ((0 : Nat) : Rat) = a by norm_num, show a + b * ((1 : Nat) : Rat) - a = b by norm_num]

/-- **C98.** A line scan is read spectrum by spectrum, as many as the header says; equal steps in the table of distances are the scale of its axis, and the first distance is the offset. Two spectra, two channels and
two distances are needed. -/
theorem C98_line_partial {num : Text → Option Rat} {disk : Disk} {o : Options} {pre stem : Text} {f : Bytes} {ny nx n nz w off ns : Nat} (hp : IsFolder pre) (hs : '/' ∉ stem) (hd : ∃ c ∈ stem, c ≠ '.')
    (hfile : disk.bytes (pre ++ (stem ++ ".lsd".toList)) = some f) (hf : SpdFile o.big f ny nx nz w off) (hfit : off + ny * nx * nz * w ≤ f.length)
    (hshape : ny = 1 ∧ nx = n ∨ ny = n ∧ nx = 1) (hn : n ≠ 1) (hz : nz ≠ 1) (hspec : storedInt o.big f 20 4 = ns) (hle : ns ≤ n)
    {spc : Option Bytes} (hspc : disk.bytes (o.spcName.getD (pre ++ (stem ++ ".spc".toList))) = spc) (hok : ∀ g, spc = some g → SpcComplete o.big o.loadAll g ∧ KnownElements o.big g)
    {csv : Option Text} (hcsv : disk.text (o.csvName.getD (pre ++ (stem ++ ".csv".toList))) = csv) (hpath : o.csvName ≠ none ∨ pre = [] ∨ pre.head? = some '/')
    {m : Nat} {a b : Rat} (htab : ∀ t, csv = some t → DistanceTable num t ((List.range (m + 2)).map fun (k : Nat) => a + b * (k : Rat)))
    (horder : o.lazy = true ∨ o.big = false ∨ w = 1) :
    ∃ r, fileReader num disk o (pre ++ (stem ++ ".lsd".toList)) = .ok r ∧ r.shape = [ns, nz] ∧ r.data.length = ns * nz ∧
      (∀ i c, i < ns → c < nz → r.data[i * nz + c]? = some (stored o.big f (off + (i * nz + c) * w) w)) ∧
      (∃ xa ea, r.axes = [xa, ea] ∧ (xa.size, xa.index, xa.name, xa.navigate) = (ns, 0, "x", true) ∧
        (csv ≠ none → (xa.scale, xa.offset, xa.units) = (b, a, some "nm")) ∧ (csv = none → (xa.scale, xa.offset, xa.units) = (1, 0, none)) ∧
        (ea.size, ea.index, ea.name, ea.navigate) = (nz, -1, "Energy", false) ∧
        (∀ g, spc = some g → (ea.scale, ea.offset, ea.units) = ((storedInt o.big g 384 4 : Rat) / 1000, storedFloat o.big g 448, some "keV"))) ∧
      (∀ g, spc = some g → ∃ m, r.spc = some m ∧ MetaOk o.big g m) ∧ r.title = "EDS Line Scan" := by
  obtain ⟨md, h1, h2, h3⟩ := si_read (num := num) (ext := "lsd".toList) hp hs hd (by decide) (by decide) hfile hf hfit hspc hok
  have hfr : fileReader num disk o (pre ++ (stem ++ ".lsd".toList)) = siReader num disk o (pre ++ (stem ++ ".lsd".toList)) := by
    unfold fileReader
    dsimp only
    rw [show ".lsd".toList = '.' :: "lsd".toList from rfl, splitExt_of hp hs hd (by decide) (by decide)]
    rfl
  rw [hfr]
  have hpc : disk.text (o.csvName.getD (csvPath (pre ++ (stem ++ '.' :: "lsd".toList)))) = csv := by
    rw [← hcsv]
    cases hc : o.csvName with
    | some p => rfl
    | none =>
      rw [Option.getD_none, Option.getD_none, csvPath_of hp hs hd (by decide) (by decide)]
      rcases hpath with h | rfl | h
      · exact absurd hc h
      · rfl
      · rw [if_pos h]
  rw [hpc] at h3
  rw [show ".lsd".toList = '.' :: "lsd".toList from rfl, h3]
  dsimp only
  rw [if_pos (by decide)]
  have hdata : ∀ k, stored (o.lazy && o.big) f (off + k * w) w = stored o.big f (off + k * w) w := by
    intro k
    rcases horder with h | h | h
    · rw [h, Bool.true_and]
    · rw [h, Bool.and_false]
    · rw [h, stored_byte, stored_byte]
  simp only [hdata]
  have hprod : ny * nx * nz = n * nz := by
    rcases hshape with ⟨rfl, rfl⟩ | ⟨rfl, rfl⟩ <;> simp
  have hns : ns * nz ≤ n * nz := Nat.mul_le_mul_right nz hle
  have htake : ((List.range (ny * nx * nz)).map fun k => stored o.big f (off + k * w) w).take (ns * nz) = (List.range (ns * nz)).map fun k => stored o.big f (off + k * w) w := by
    rw [← List.map_take, List.take_range, hprod, Nat.min_eq_left hns]
  have helem : ∀ i c, i < ns → c < nz → ((List.range (ns * nz)).map fun k => stored o.big f (off + k * w) w)[i * nz + c]? = some (stored o.big f (off + (i * nz + c) * w) w) := by
    intro i c hi hc
    have i2 : i * nz + c < ns * nz := by
      have := Nat.mul_le_mul_right nz hi
      rw [Nat.succ_mul] at this
      omega
    rw [List.getElem?_map, List.getElem?_range i2]
    rfl
  have hen : (energy o.big spc nz).size = nz ∧ (energy o.big spc nz).index = -1 ∧ (energy o.big spc nz).name = "Energy" ∧ (energy o.big spc nz).navigate = false := by
    cases spc <;> exact ⟨rfl, rfl, rfl, rfl⟩
  have hes : ∀ g, spc = some g → ((energy o.big spc nz).scale, (energy o.big spc nz).offset, (energy o.big spc nz).units) = ((storedInt o.big g 384 4 : Rat) / 1000, storedFloat o.big g 448, some "keV") := by
    rintro g rfl
    rfl
  unfold lineScan
  rw [hspec, squeeze_line hn hz hle hshape]
  simp only [bind, Except.bind]
  rw [htake]
  cases csv with
  | none =>
    refine ⟨_, rfl, rfl, by simp, helem, ⟨_, _, rfl, rfl, fun h => absurd rfl h, fun _ => rfl, ?_, hes⟩, h1, rfl⟩
    simp only [hen]
  | some t =>
    dsimp only
    rw [csv_ok (htab t rfl), calibration_ok rfl]
    refine ⟨_, rfl, rfl, by simp, helem, ⟨_, _, rfl, rfl, fun _ => rfl, fun h => (by cases h), ?_, hes⟩, h1, rfl⟩
    simp only [hen]

/-- A line of one spectrum, or of spectra with one channel, cannot be loaded: `squeeze` removes these dimensions too. -/
theorem C98_fails_single {num : Text → Option Rat} {csv : Option Text} {k : Nat} {ns : Int} {data : List Nat} {energy : Axis} {md : Option Meta} :
    lineScan num csv [1, 1, k] ns data energy md = .error .indexError ∧ lineScan num csv [1, k, 1] ns data energy md = .error .indexError := by
  constructor
  · have : squeezeSlice [1, 1, k] ns = .error .indexError := by
      unfold squeezeSlice
      by_cases h : k = 1 <;> simp [h]
    unfold lineScan
    rw [this]
    rfl
  · have : squeezeSlice [1, k, 1] ns = .error .indexError := by
      unfold squeezeSlice
      by_cases h : k = 1 <;> simp [h]
    unfold lineScan
    rw [this]
    rfl

/-- A table of distances with a single row makes loading fail. -/
theorem C98_fails_row {num : Text → Option Rat} {t : Text} {d : Rat} (h : DistanceTable num t [d]) {n nz ns : Nat} (hn : n ≠ 1) (hz : nz ≠ 1) (hle : ns ≤ n) {data : List Nat} {energy : Axis} {md : Option Meta} :
    lineScan num (some t) [1, n, nz] ns data energy md = .error .indexError := by
  unfold lineScan
  rw [squeeze_line hn hz hle (.inl ⟨rfl, rfl⟩)]
  simp only [bind, Except.bind]
  rw [csv_ok h]
  rfl

/-- The table of distances is looked for in the directory twice, when the directory is given relative to the current one. -/
theorem C98_fails_path {dir stem : Text} (h1 : dir ≠ []) (h2 : dir.getLast? ≠ some '/') (h3 : dir.head? ≠ some '/') (hs : '/' ∉ stem) (hd : ∃ c ∈ stem, c ≠ '.') :
    csvPath (dir ++ '/' :: (stem ++ ".lsd".toList)) = dir ++ '/' :: (dir ++ '/' :: (stem ++ ".csv".toList)) := by
  have := csvPath_of (pre := dir ++ ['/']) (stem := stem) (ext := "lsd".toList) (.inr (.inr ⟨dir, rfl, h1, h2⟩)) hs hd (by decide) (by decide)
  rw [if_neg (by cases dir with | nil => exact absurd rfl h1 | cons a l => simpa using h3)] at this
  simpa using this

/-- A line scan with several lines keeps three dimensions, but has two axes. -/
theorem C98_fails_lines {num : Text → Option Rat} {ny nx nz ns : Nat} (h1 : ny ≠ 1) (h2 : nx ≠ 1) (h3 : nz ≠ 1) (hle : ns ≤ ny) {data : List Nat} {energy : Axis} {md : Option Meta} :
    ∃ r, lineScan num none [ny, nx, nz] ns data energy md = .ok r ∧ r.shape = [ns, nx, nz] ∧ r.axes.length = 2 := by
  have : squeezeSlice [ny, nx, nz] (ns : Int) = .ok ([ns, nx, nz], ns * (nx * nz)) := by
    unfold squeezeSlice
    have : [ny, nx, nz].filter (· ≠ 1) = [ny, nx, nz] := by simp [h1, h2, h3]
    rw [this]
    simp [Nat.min_eq_left hle]
  unfold lineScan
  rw [this]
  exact ⟨_, rfl, rfl, rfl⟩

/-- **C98.** Files with other extensions are rejected. -/
theorem C98_rejects {num : Text → Option Rat} {disk : Disk} {o : Options} {pre stem ext : Text} (hp : IsFolder pre) (hs : '/' ∉ stem) (hd : ∃ c ∈ stem, c ≠ '.') (he : '/' ∉ ext) (he' : '.' ∉ ext)
    (h1 : ext.map Char.toLower ≠ "spd".toList) (h2 : ext.map Char.toLower ≠ "lsd".toList) (h3 : ext.map Char.toLower ≠ "spc".toList) :
    fileReader num disk o (pre ++ (stem ++ '.' :: ext)) = .error .valueError := by
  have key : ∀ e : Text, ext.map Char.toLower ≠ e → ('.' :: ext).map Char.toLower ≠ '.' :: e := by
    intro e he h
    rw [List.map_cons, List.cons.injEq] at h
    exact he h.2
  unfold fileReader
  dsimp only
  rw [splitExt_of hp hs hd he he']
  dsimp only
  rw [if_neg, if_neg]
  · exact key _ h3
  · rw [not_or]
    exact ⟨key _ h1, key _ h2⟩

/-! ### Examples -/

/-- A file of zeros: an empty spectrum of an old version. -/
theorem zeros_stored (big : Bool) (n pos w : Nat) : stored big (List.replicate n 0) pos w = 0 := by
  have : ∀ k, leVal (List.replicate k 0) = 0 := by
    intro k
    induction k with
    | zero => rfl
    | succ k ih => rw [List.replicate_succ, leVal, ih]; rfl
  unfold stored
  rw [List.drop_replicate, List.take_replicate]
  dsimp only
  rw [List.reverse_replicate, this, ite_self]

example (big : Bool) : SpcComplete big true (List.replicate 20736 0) ∧ storedInt big (List.replicate 20736 0) 28 4 = (0 : Nat) ∧ storedInt big (List.replicate 20736 0) 32 2 = (0 : Nat) ∧
    KnownElements big (List.replicate 20736 0) := by
  refine ⟨.inr ⟨rfl, .inr ⟨by rw [List.length_replicate], ?_⟩⟩, ?_, ?_, ?_⟩
  · unfold storedFloat
    rw [zeros_stored]
    norm_num [f32Dec, f32Abs]
  · unfold storedInt; rw [zeros_stored]; rfl
  · unfold storedInt; rw [zeros_stored]; rfl
  · intro k hk
    unfold storedInt at hk
    rw [zeros_stored] at hk
    have : toSigned 2 0 = 0 := rfl
    omega

/-- A spectrum of two channels at 20740, with the elements silicon and oxygen. -/
def sampleFile : Bytes := List.replicate 28 0 ++ leBytes 4 20740 ++ leBytes 2 2 ++ List.replicate 350 0 ++ leBytes 4 5 ++ List.replicate 250 0 ++ leBytes 2 2 ++ leBytes 2 14 ++ leBytes 2 8 ++
  List.replicate (20740 - 644) 0 ++ leBytes 4 7 ++ leBytes 4 9

/-- The numbers of a spectrum that are looked at. -/
example : (storedInt false (sampleFile.take 700) 28 4, storedInt false (sampleFile.take 700) 32 2, storedInt false (sampleFile.take 700) 384 4, storedInt false (sampleFile.take 700) 638 2,
    stored false (sampleFile.take 700) 640 2, stored false (sampleFile.take 700) 642 2) = (20740, 2, 5, 2, 14, 8) := by decide +kernel

example : symbol 14 = "Si" ∧ symbol 8 = "O" := by decide +kernel

/-- A map of 1 line, 2 pixels and 3 channels of one byte. -/
def sampleMap : Bytes := List.replicate 20 0 ++ leBytes 4 2 ++ leBytes 4 2 ++ leBytes 4 1 ++ leBytes 4 3 ++ leBytes 4 1 ++ leBytes 4 1068 ++ leBytes 4 0 ++ "m.bmp".toList.map (fun c => UInt8.ofNat c.toNat) ++
  List.replicate 115 0 ++ List.replicate 900 0 ++ [1, 2, 3, 4, 5, 6]

example : SpdFile false sampleMap 1 2 3 1 1068 where
  head := by decide +kernel
  points := by decide +kernel
  lines := by decide +kernel
  channels := by decide +kernel
  bytes := by decide +kernel
  start := by decide +kernel
  width := .inl rfl

example : 1068 + 1 * 2 * 3 * 1 ≤ sampleMap.length ∧ (sampleMap.drop 48).take 120 = ("m".toList ++ '.' :: "bmp".toList).map (fun c => UInt8.ofNat c.toNat) ++ List.replicate 115 0 ∧
    storedInt false sampleMap 20 4 = (2 : Nat) ∧ stored false sampleMap (1068 + ((0 * 2 + 1) * 3 + 0) * 1) 1 = 4 := by decide +kernel

example : IsFolder "/data/".toList ∧ IsFolder "runs/".toList := ⟨.inr (.inr ⟨"/data".toList, by decide, by decide, by decide⟩), .inr (.inr ⟨"runs".toList, by decide, by decide, by decide⟩)⟩

example : csvPath "runs/a.lsd".toList = "runs/runs/a.csv".toList ∧ csvPath "/d/a.lsd".toList = "/d/a.csv".toList ∧ spcPath "runs/a.lsd".toList = "runs/a.spc".toList := by decide +kernel

/-- A table of distances. -/
example : DistanceTable (fun t => some (decVal t)) (linesText (List.replicate 14 "Mag, 5".toList ++ ["Point,Distance (nm)".toList, "1,10".toList, "2,15".toList])) [10, 15] :=
  ⟨List.replicate 14 "Mag, 5".toList, ["Point".toList, "Distance (nm)".toList], [["1".toList, "10".toList], ["2".toList, "15".toList]], 1, rfl, by decide +kernel, by decide +kernel, by unfold CleanRow; decide +kernel,
    fun j => by
      match j with
      | 0 => decide
      | 1 => decide
      | j + 2 => simp, by simp [decVal]⟩

end Verif.Props.Edax
