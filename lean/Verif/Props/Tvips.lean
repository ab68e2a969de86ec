import Verif.Model.Tvips
/-!
C29-C31: TVIPS recordings.
-/
namespace Verif.Props.Tvips
open Verif Verif.Tvips

/-! ### Writing and reading frames -/

theorem length_records {fh : Nat → List UInt8} {incr m : Nat} (hfh : ∀ i, (fh i).length = incr) :
    ∀ (ps : List (List UInt8)) (i : Nat), (∀ p ∈ ps, p.length = m) →
    (records fh i ps).length = ps.length * (incr + m)
  | [], _, _ => by simp [records]
  | p :: ps, i, h => by
    have ih := length_records hfh ps (i + 1) (fun q hq => h q (List.mem_cons_of_mem _ hq))
    simp only [records, List.length_append, hfh, h p (List.mem_cons_self ..), ih, List.length_cons]
    ring

theorem readRecords_records {fh : Nat → List UInt8} {incr m : Nat}
    (hfh : ∀ i, (fh i).length = incr) (hpos : 0 < incr + m) :
    ∀ (ps : List (List UInt8)) (i : Nat), ps ≠ [] → (∀ p ∈ ps, p.length = m) →
    readRecords incr (incr + m) (records fh i ps) = .ok ps := by
  intro ps i hne h
  have hlen := length_records hfh ps i h
  unfold readRecords
  rw [if_neg]
  · rw [hlen, Nat.mul_div_cancel _ hpos]
    congr 1
    -- each slice is a frame
    have key : ∀ (ps : List (List UInt8)) (i : Nat), (∀ p ∈ ps, p.length = m) →
        (List.range ps.length).map (fun j =>
          (((records fh i ps).drop (j * (incr + m))).take (incr + m)).drop incr) = ps := by
      intro ps
      induction ps with
      | nil => intro _ _; rfl
      | cons p ps ih =>
        intro i h
        have hp := h p (List.mem_cons_self ..)
        have hl : (fh i ++ p).length = incr + m := by simp [hfh, hp]
        rw [List.length_cons, List.range_succ_eq_map, List.map_cons, List.map_map]
        congr 1
        · simp only [Nat.zero_mul, List.drop_zero, records]
          rw [List.take_left' hl, List.drop_left' (hfh i)]
        · rw [← ih (i + 1) (fun q hq => h q (List.mem_cons_of_mem _ hq))]
          simp only [List.length_map, List.length_range]
          apply List.map_congr_left
          intro j _
          have : (j + 1) * (incr + m) = (fh i ++ p).length + j * (incr + m) := by rw [hl]; ring
          simp only [Function.comp, Nat.succ_eq_add_one, records]
          rw [this, ← List.drop_drop, List.drop_left' rfl,
            ih (i + 1) (fun q hq => h q (List.mem_cons_of_mem _ hq))]
    exact key ps i h
  · rintro (h1 | h1)
    · rw [hlen, Nat.mul_mod_left] at h1
      exact h1 rfl
    · rw [h1] at hlen
      have : 0 < ps.length * (incr + m) := Nat.mul_pos (List.length_pos_iff.2 hne) hpos
      simp only [List.length_nil] at hlen
      rw [← hlen] at this
      exact absurd this (Nat.lt_irrefl _)

theorem readOthers_otherFiles {fh : Nat → List UInt8} {incr m perFile : Nat}
    (hfh : ∀ i, (fh i).length = incr) (hpos : 0 < incr + m) (hper : 0 < perFile) :
    ∀ (fuel i : Nat) (ps : List (List UInt8)), ps.length ≤ fuel → (∀ p ∈ ps, p.length = m) →
    readOthers incr (incr + m) (otherFiles fh perFile fuel i ps) = .ok ps
  | 0, i, ps, hf, _ => by
    have : ps = [] := by simpa using hf
    subst this; rfl
  | fuel + 1, i, ps, hf, h => by
    unfold otherFiles
    split
    · rename_i hn; subst hn; rfl
    · rename_i hn
      have hl : 0 < ps.length := List.length_pos_iff.2 hn
      have htake : ps.take perFile ≠ [] := by
        intro e
        have := congrArg List.length e
        simp only [List.length_take, List.length_nil] at this
        omega
      rw [readOthers, readRecords_records hfh hpos _ _ htake
        (fun p hp => h p (List.mem_of_mem_take hp))]
      dsimp only
      rw [readOthers_otherFiles hfh hpos hper fuel _ _ (by simp; omega)
        (fun p hp => h p (List.mem_of_mem_drop hp))]
      dsimp only
      rw [List.take_append_drop]

theorem otherFiles_sizes {fh : Nat → List UInt8} {incr m perFile : Nat}
    (hfh : ∀ i, (fh i).length = incr) :
    ∀ (fuel i : Nat) (ps : List (List UInt8)), (∀ p ∈ ps, p.length = m) →
    ∀ f ∈ otherFiles fh perFile fuel i ps, f.length ≤ perFile * (incr + m)
  | 0, _, _, _, f, hf => by simp [otherFiles] at hf
  | fuel + 1, i, ps, h, f, hf => by
    unfold otherFiles at hf
    split at hf
    · simp at hf
    · rcases List.mem_cons.1 hf with rfl | hf
      · rw [length_records hfh _ _ (fun p hp => h p (List.mem_of_mem_take hp))]
        apply Nat.mul_le_mul_right
        simp only [List.length_take]; omega
      · exact otherFiles_sizes hfh fuel _ _ (fun p hp => h p (List.mem_of_mem_drop hp)) f hf

/-- The frames in order, each behind the header with its number. -/
def numberedFrames (fh : Nat → List UInt8) (frames : List (List UInt8)) : List UInt8 :=
  (frames.zipIdx.map fun e => fh e.2 ++ e.1).flatten

theorem records_eq (fh : Nat → List UInt8) : ∀ (ps : List (List UInt8)) (i : Nat),
    records fh i ps = ((ps.zipIdx i).map fun e => fh e.2 ++ e.1).flatten
  | [], _ => rfl
  | p :: ps, i => by simp [records, records_eq fh ps (i + 1), List.zipIdx_cons]

theorem records_append (fh : Nat → List UInt8) : ∀ (ps qs : List (List UInt8)) (i : Nat),
    records fh i (ps ++ qs) = records fh i ps ++ records fh (i + ps.length) qs
  | [], qs, i => by simp [records]
  | p :: ps, qs, i => by
    simp only [List.cons_append, records, records_append fh ps qs (i + 1), List.length_cons,
      List.append_assoc]
    rw [show i + 1 + ps.length = i + (ps.length + 1) by omega]

theorem flatten_otherFiles {fh : Nat → List UInt8} {perFile : Nat} (hper : 0 < perFile) :
    ∀ (fuel i : Nat) (ps : List (List UInt8)), ps.length ≤ fuel →
    (otherFiles fh perFile fuel i ps).flatten = records fh i ps
  | 0, i, ps, hf => by
    have : ps = [] := by simpa using hf
    subst this; rfl
  | fuel + 1, i, ps, hf => by
    unfold otherFiles
    split
    · rename_i hn; subst hn; rfl
    · rename_i hn
      have hl : 0 < ps.length := List.length_pos_iff.2 hn
      rw [List.flatten_cons, flatten_otherFiles hper fuel _ _ (by simp; omega), ← records_append,
        List.take_append_drop]

/-- C29: the files together are the main header and all frames in order, each behind the frame
header with its number in the whole recording. -/
theorem C29_numbers {h : Header} {fh : Nat → List UInt8} {limit : Option Nat} {recSize : Nat}
    {frames files : List (List UInt8)} (hrec : 0 < recSize)
    (hw : writeFiles h fh limit recSize frames = .ok files) :
    files.flatten = headerBytes h ++ numberedFrames fh frames := by
  unfold writeFiles at hw
  split at hw
  · cases hw
  · cases hw
    have hm : recSize ≤ effectiveLimit limit recSize frames.length := by
      unfold effectiveLimit
      dsimp only
      split <;> omega
    rw [List.flatten_cons, flatten_otherFiles (Nat.div_pos hm hrec) _ _ _ (by simp),
      List.append_assoc]
    congr 1
    have := records_append fh (frames.take ((effectiveLimit limit recSize frames.length - 256) / recSize))
      (frames.drop ((effectiveLimit limit recSize frames.length - 256) / recSize)) 0
    rw [Nat.zero_add] at this
    rw [← this, List.take_append_drop, records_eq]
    rfl

/-- Three frames in two files. -/
example : ∃ files, writeFiles (mainHeader 2 0 1 1 1 0 0 0 0 0) (fun i => [UInt8.ofNat i]) (some 261) 2
    [[7], [8], [9]] = .ok files ∧ files.length = 2 := ⟨_, rfl, by decide +kernel⟩

theorem length_headerBytes (h : Header) : (headerBytes h).length = 256 := by
  have : (encodeRec false headerWidths h.vals).length = 52 := by
    rw [encodeRec_length false _ _ (by cases h; rfl)]; decide
  rw [headerBytes, List.length_append, this, List.length_replicate]

/-- Every field of the header fits. -/
def Header.Fits (h : Header) : Prop := ∀ v ∈ h.vals, v < 256 ^ 4

theorem readHeader_headerBytes {h : Header} (hf : Header.Fits h) (rest : List UInt8) :
    readHeader (headerBytes h ++ rest) = .ok h := by
  have hforall : List.Forall₂ (fun w v => v < 256 ^ w) headerWidths h.vals := by
    simp only [Header.Fits, Header.vals, List.forall_mem_cons] at hf
    simp only [headerWidths, Header.vals, List.replicate, List.forall₂_cons, List.forall₂_nil_right_iff]
    obtain ⟨a, b, c, d, e, f, g, i, j, k, l, m, n, -⟩ := hf
    exact ⟨a, b, c, d, e, f, g, i, j, k, l, m, n, trivial⟩
  have hl : (encodeRec false headerWidths h.vals).length = 52 := by
    rw [encodeRec_length false _ _ hforall.length_eq]; decide
  unfold readHeader
  rw [if_neg (by rw [List.length_append, length_headerBytes]; omega)]
  unfold headerBytes
  rw [List.append_assoc, decodeRec_encodeRec false _ _ _ hforall]
  cases h
  rfl

/-- The hypotheses on a recording: a version 2 header for the frames, all frames of the size it
says, frame headers of the size it says. -/
structure Recording (h : Header) (fh : Nat → List UInt8) (recSize : Nat)
    (frames : List (List UInt8)) : Prop where
  fits : Header.Fits h
  size : h.size = 256
  version : h.version = 2
  incr : frameHeaderSize ≤ h.frameHeaderBytes
  fh : ∀ i, (fh i).length = h.frameHeaderBytes
  recEq : recSize = h.frameHeaderBytes + h.dimy * h.dimx * (h.bits / 8)
  frames : ∀ p ∈ frames, p.length = h.dimy * h.dimx * (h.bits / 8)

theorem present_map_some (fs : List (List UInt8)) (rest : Disk) (h : rest.head? ≠ some none → rest = []) :
    present (fs.map some ++ rest) = fs := by
  unfold present
  have h1 : ∀ fs : List (List UInt8), (fs.map some ++ rest).takeWhile Option.isSome = fs.map some := by
    intro fs
    induction fs with
    | nil =>
      cases rest with
      | nil => rfl
      | cons r rest =>
        cases r with
        | none => rfl
        | some f => exact absurd (h (by simp)) (by simp)
    | cons f fs ih => simp [ih]
  rw [h1]
  induction fs with
  | nil => rfl
  | cons f fs ih => simp

/-- Reading the files of one write, with nothing or a gap after them. -/
theorem readFrames_writeFiles {h : Header} {fh : Nat → List UInt8} {limit : Option Nat}
    {recSize : Nat} {frames : List (List UInt8)} {files : List (List UInt8)} {rest : Disk}
    (hr : Recording h fh recSize frames) (hw : writeFiles h fh limit recSize frames = .ok files)
    (hrest : rest.head? ≠ some none → rest = []) :
    readFrames (files.map some ++ rest) = .ok frames := by
  unfold writeFiles at hw
  split at hw
  · cases hw
  · rename_i hne
    cases hw
    have hrec := hr.recEq
    have hincr := hr.incr
    have hpos : 0 < h.frameHeaderBytes + h.dimy * h.dimx * (h.bits / 8) := by
      unfold frameHeaderSize at hincr; omega
    have hlim : 256 + recSize ≤ effectiveLimit limit recSize frames.length := by
      unfold effectiveLimit; dsimp only; split <;> omega
    have hp : 0 < recSize := by omega
    have hfirst : 0 < (effectiveLimit limit recSize frames.length - 256) / recSize :=
      Nat.div_pos (by omega) hp
    have hper : 0 < effectiveLimit limit recSize frames.length / recSize :=
      Nat.div_pos (by omega) hp
    generalize effectiveLimit limit recSize frames.length = lim at *
    unfold readFrames
    rw [present_map_some _ _ hrest]
    dsimp only
    rw [readHeader_headerBytes hr.fits]
    dsimp only
    rw [if_neg (by simp [hr.version]), if_neg (show ¬ h.version = 1 by simp [hr.version]),
      if_neg (by omega), hr.size, List.drop_left' (length_headerBytes h)]
    have htake : frames.take ((lim - 256) / recSize) ≠ [] := by
      intro e
      have := congrArg List.length e
      have hl : 0 < frames.length := List.length_pos_iff.2 hne
      simp only [List.length_take, List.length_nil] at this
      omega
    rw [readRecords_records hr.fh hpos _ _ htake
      (fun p hp => hr.frames p (List.mem_of_mem_take hp))]
    dsimp only
    rw [readOthers_otherFiles hr.fh hpos hper _ _ _ (by simp)
      (fun p hp => hr.frames p (List.mem_of_mem_drop hp))]
    dsimp only
    rw [List.take_append_drop]

/-! ### C29 -/

/-- C29, partial (version 2): however the limit splits the recording, the numbered files hold all
frames once and in order. A write only fails when there is no frame. Missing: version 1, see
`C29_fails_version_1`, and a signal without navigation axis, see `C29_fails_single_image`. -/
theorem C29_frames_partial {h : Header} {fh : Nat → List UInt8} (limit : Option Nat)
    {recSize : Nat} {frames : List (List UInt8)} (hr : Recording h fh recSize frames)
    (hne : frames ≠ []) :
    ∃ files, writeFiles h fh limit recSize frames = .ok files ∧
      readFrames (files.map some) = .ok frames := by
  have : ∃ files, writeFiles h fh limit recSize frames = .ok files := by
    unfold writeFiles
    rw [if_neg hne]
    exact ⟨_, rfl⟩
  obtain ⟨files, hw⟩ := this
  refine ⟨files, hw, ?_⟩
  have := readFrames_writeFiles (rest := []) hr hw (by simp)
  simpa using this

/-- C29: no file is larger than the limit, or than a header and one frame if the limit is smaller
than that (and then every file holds a single frame). -/
theorem C29_sizes {h : Header} {fh : Nat → List UInt8} {limit recSize : Nat}
    {frames : List (List UInt8)} {files : List (List UInt8)}
    (hr : Recording h fh recSize frames)
    (hw : writeFiles h fh (some limit) recSize frames = .ok files) :
    (∀ f ∈ files, f.length ≤ limit) ∨
      (limit < 256 + recSize ∧ (files.head?.map List.length = some (256 + recSize)) ∧
        (recSize > 256 → ∀ f ∈ files.tail, f.length = recSize)) := by
  unfold writeFiles at hw
  split at hw
  · cases hw
  · rename_i hne
    cases hw
    have hincr := hr.incr
    have hp : 0 < recSize := by unfold frameHeaderSize at hincr; rw [hr.recEq]; omega
    have hrec := hr.recEq
    have hl : 0 < frames.length := List.length_pos_iff.2 hne
    by_cases hlim : limit < 256 + recSize
    · right
      have he : effectiveLimit (some limit) recSize frames.length = 256 + recSize := by
        unfold effectiveLimit; dsimp only [Option.getD]; rw [if_pos hlim]
      refine ⟨hlim, ?_, ?_⟩
      · have h1 : (256 + recSize - 256) / recSize = 1 := by
          rw [Nat.add_sub_cancel_left, Nat.div_self hp]
        simp only [List.head?_cons, Option.map_some, he, h1, List.length_append,
          length_headerBytes]
        rw [length_records hr.fh _ _ (fun p hp => hr.frames p (List.mem_of_mem_take hp)), ← hrec]
        simp only [List.length_take]
        rw [Nat.min_eq_left (by omega), Nat.one_mul]
      · intro hbig f hf
        simp only [List.tail_cons, he] at hf
        have h1 : (256 + recSize) / recSize = 1 := by
          rw [Nat.add_div_right _ hp, Nat.div_eq_of_lt hbig]
        rw [h1] at hf
        have key : ∀ (fuel i : Nat) (ps : List (List UInt8)),
            (∀ p ∈ ps, p.length = h.dimy * h.dimx * (h.bits / 8)) →
            ∀ f ∈ otherFiles fh 1 fuel i ps, f.length = recSize := by
          intro fuel
          induction fuel with
          | zero => intro i ps _ f hf; simp [otherFiles] at hf
          | succ fuel ih =>
            intro i ps hps f hf
            unfold otherFiles at hf
            split at hf
            · simp at hf
            · rename_i hn
              rcases List.mem_cons.1 hf with rfl | hf
              · rw [length_records hr.fh _ _ (fun p hp => hps p (List.mem_of_mem_take hp)), ← hrec]
                have : 0 < ps.length := List.length_pos_iff.2 hn
                simp only [List.length_take]
                rw [Nat.min_eq_left (by omega), Nat.one_mul]
              · exact ih _ _ (fun p hp => hps p (List.mem_of_mem_drop hp)) f hf
        exact key _ _ _ (fun p hp => hr.frames p (List.mem_of_mem_drop hp)) f hf
    · left
      have he : effectiveLimit (some limit) recSize frames.length = limit := by
        unfold effectiveLimit; dsimp only [Option.getD]; rw [if_neg hlim]
      rw [he]
      intro f hf
      rcases List.mem_cons.1 hf with rfl | hf
      · rw [List.length_append, length_headerBytes,
          length_records hr.fh _ _ (fun p hp => hr.frames p (List.mem_of_mem_take hp)), ← hrec]
        have h1 := Nat.div_mul_le_self (limit - 256) recSize
        have h2 : (frames.take ((limit - 256) / recSize)).length * recSize ≤
            (limit - 256) / recSize * recSize :=
          Nat.mul_le_mul_right _ (by rw [List.length_take]; omega)
        omega
      · have := otherFiles_sizes (m := h.dimy * h.dimx * (h.bits / 8)) hr.fh _ _ _
          (fun p hp => hr.frames p (List.mem_of_mem_drop hp)) f hf
        rw [← hrec] at this
        exact this.trans (Nat.div_mul_le_self limit recSize)

/-- Five frames of 2 × 1 bytes. -/
def sampleFrames : List (List UInt8) := [[1, 2], [3, 4], [5, 6], [7, 8], [9, 10]]
def sampleHeader : Header := mainHeader 2 0 1 2 1 0 0 5 200 0
def sampleFh (i : Nat) : List UInt8 := List.replicate 59 0 ++ [UInt8.ofNat (i + 1)]

theorem sample_recording : Recording sampleHeader sampleFh 62 sampleFrames :=
  ⟨by simp [Header.Fits, sampleHeader, mainHeader, Header.vals, frameHeaderSize], rfl, rfl,
    by decide, fun i => by simp [sampleFh, sampleHeader, mainHeader, frameHeaderSize], rfl,
    by decide⟩

/-- Split over two files: the first holds one frame, the second the others. -/
example : (writeFiles sampleHeader sampleFh (some 350) 62 sampleFrames).toOption.map
    (·.map List.length) = some [318, 248] := by decide +kernel

/-- Files written in version 1 are refused when reading: the reader takes the frame header to be 12
bytes long and finds that too short. -/
theorem C29_fails_version_1 :
    ((writeFiles { sampleHeader with version := 1 } sampleFh none 62 sampleFrames) >>=
      fun files => readFrames (files.map some)) = .error .valueError := by decide +kernel

/-- A single image (no navigation axis) cannot be written. -/
theorem C29_fails_single_image (h : Header) (fh : Nat → List UInt8) (limit : Option Nat)
    (recSize : Nat) : writeFiles h fh limit recSize [] = .error .nameError := rfl

/-- A recording of one frame is written but cannot be read as a stack. -/
theorem C29_fails_one_frame :
    ((writeFiles sampleHeader sampleFh none 62 [[1, 2]]) >>=
      fun files => readStack (files.map some)) = .error .indexError := by decide +kernel

/-- Recordings of two or more frames are read as a stack. -/
theorem C29_stack {h : Header} {fh : Nat → List UInt8} {limit : Option Nat}
    {recSize : Nat} {frames : List (List UInt8)} (hr : Recording h fh recSize frames)
    (h2 : 2 ≤ frames.length) :
    ∃ files, writeFiles h fh limit recSize frames = .ok files ∧
      readStack (files.map some) = .ok frames := by
  obtain ⟨files, hw, hread⟩ := C29_frames_partial limit hr
    (by rintro rfl; simp at h2)
  refine ⟨files, hw, ?_⟩
  unfold readStack
  rw [hread]
  dsimp only
  rw [if_neg (by omega)]

/-! ### C30 -/

theorem unroll_lt {n : Nat} (h : Int) {i : Nat} (hi : i < n) : unroll n h i < n := by
  unfold unroll
  have hn : (n : Int) ≠ 0 := by omega
  have h1 := Int.emod_nonneg ((i : Int) - h) hn
  have h2 := Int.emod_lt_of_pos ((i : Int) - h) (show (0 : Int) < n by omega)
  omega

/-- Rolling an axis is invertible: each source place has exactly one destination. -/
theorem unroll_surj {n : Nat} (h : Int) {j : Nat} (hj : j < n) :
    ∃ i, i < n ∧ unroll n h i = j := by
  have hn : (n : Int) ≠ 0 := by omega
  refine ⟨(((j : Int) + h) % n).toNat, ?_, ?_⟩
  · have h1 := Int.emod_nonneg ((j : Int) + h) hn
    have h2 := Int.emod_lt_of_pos ((j : Int) + h) (show (0 : Int) < n by omega)
    omega
  · unfold unroll
    have h1 := Int.emod_nonneg ((j : Int) + h) hn
    rw [Int.toNat_of_nonneg h1, Int.emod_sub_emod]
    have : (j : Int) + h - h = j := by omega
    rw [this, Int.emod_eq_of_lt (by omega) (by omega)]
    simp

theorem unroll_inj {n : Nat} (h : Int) {i j : Nat} (hi : i < n) (hj : j < n)
    (e : unroll n h i = unroll n h j) : i = j := by
  have hn : (n : Int) ≠ 0 := by omega
  unfold unroll at e
  have h1 := Int.emod_nonneg ((i : Int) - h) hn
  have h2 := Int.emod_nonneg ((j : Int) - h) hn
  have e' : ((i : Int) - h) % n = ((j : Int) - h) % n := by omega
  have := Int.emod_emod_of_dvd
  have e2 : ((i : Int) - h + h) % n = ((j : Int) - h + h) % n := by
    rw [Int.add_emod, e', ← Int.add_emod]
  simp only [Int.sub_add_cancel] at e2
  rw [Int.emod_eq_of_lt (by omega) (by omega), Int.emod_eq_of_lt (by omega) (by omega)] at e2
  omega

theorem scanIndex_lt {start ny nx b y x nb : Nat} (hb : b < nb) (hy : y < ny) (hx : x < nx) :
    start ≤ scanIndex start ny nx b y x ∧ scanIndex start ny nx b y x < start + nb * ny * nx := by
  unfold scanIndex
  constructor
  · omega
  · have h1 : b * ny + y < nb * ny := by
      calc b * ny + y < b * ny + ny := by omega
        _ = (b + 1) * ny := by ring
        _ ≤ nb * ny := Nat.mul_le_mul_right _ hb
    have h2 : (b * ny + y) * nx + x < nb * ny * nx := by
      calc (b * ny + y) * nx + x < (b * ny + y) * nx + nx := by omega
        _ = (b * ny + y + 1) * nx := by ring
        _ ≤ nb * ny * nx := Nat.mul_le_mul_right _ h1
    omega

theorem scanIndex_inj {start ny nx b y x b' y' x' : Nat} (hy : y < ny) (hx : x < nx)
    (hy' : y' < ny) (hx' : x' < nx)
    (e : scanIndex start ny nx b y x = scanIndex start ny nx b' y' x') :
    b = b' ∧ y = y' ∧ x = x' := by
  unfold scanIndex at e
  have e1 : (b * ny + y) * nx + x = (b' * ny + y') * nx + x' := by omega
  have hdiv : b * ny + y = b' * ny + y' := by
    have h1 : ((b * ny + y) * nx + x) / nx = b * ny + y := by
      rw [Nat.add_comm, Nat.add_mul_div_right _ _ (by omega), Nat.div_eq_of_lt hx, Nat.zero_add]
    have h2 : ((b' * ny + y') * nx + x') / nx = b' * ny + y' := by
      rw [Nat.add_comm, Nat.add_mul_div_right _ _ (by omega), Nat.div_eq_of_lt hx', Nat.zero_add]
    rw [← h1, ← h2, e1]
  have hb : b = b' := by
    have h1 : (b * ny + y) / ny = b := by
      rw [Nat.add_comm, Nat.add_mul_div_right _ _ (by omega), Nat.div_eq_of_lt hy, Nat.zero_add]
    have h2 : (b' * ny + y') / ny = b' := by
      rw [Nat.add_comm, Nat.add_mul_div_right _ _ (by omega), Nat.div_eq_of_lt hy', Nat.zero_add]
    rw [← h1, ← h2, hdiv]
  subst hb
  have hyy : y = y' := by omega
  subst hyy
  exact ⟨rfl, rfl, by omega⟩

theorem scanIndex_surj {start ny nx nb f : Nat} (h1 : start ≤ f) (h2 : f < start + nb * ny * nx) :
    ∃ b y x, b < nb ∧ y < ny ∧ x < nx ∧ scanIndex start ny nx b y x = f := by
  have hnx : 0 < nx := by
    rcases Nat.eq_zero_or_pos nx with h | h
    · subst h; simp at h2; omega
    · exact h
  have hny : 0 < ny := by
    rcases Nat.eq_zero_or_pos ny with h | h
    · subst h; simp at h2; omega
    · exact h
  have hlt : (f - start) / nx < nb * ny := by
    rw [Nat.div_lt_iff_lt_mul hnx]; omega
  refine ⟨(f - start) / nx / ny, (f - start) / nx % ny, (f - start) % nx, ?_, Nat.mod_lt _ hny,
    Nat.mod_lt _ hnx, ?_⟩
  · rw [Nat.div_lt_iff_lt_mul hny]; exact hlt
  · unfold scanIndex
    rw [Nat.div_add_mod', Nat.div_add_mod']
    omega

/-- C30: with any winding axis and hysteresis the indices used for the scan points are exactly those
of the frames of the scan, each once. -/
theorem C30_permutation (w : Winding) (h : Int) (start nb ny nx : Nat) :
    (∀ b y x, b < nb → y < ny → x < nx → start ≤ windingIndex w h start ny nx b y x ∧
      windingIndex w h start ny nx b y x < start + nb * ny * nx) ∧
    (∀ b y x b' y' x', b < nb → y < ny → x < nx → b' < nb → y' < ny → x' < nx →
      windingIndex w h start ny nx b y x = windingIndex w h start ny nx b' y' x' →
      b = b' ∧ y = y' ∧ x = x') ∧
    (∀ f, start ≤ f → f < start + nb * ny * nx →
      ∃ b y x, b < nb ∧ y < ny ∧ x < nx ∧ windingIndex w h start ny nx b y x = f) := by
  refine ⟨?_, ?_, ?_⟩
  · intro b y x hb hy hx
    have hux := unroll_lt h hx
    have huy := unroll_lt h hy
    unfold windingIndex
    cases w
    · exact scanIndex_lt hb hy hx
    · dsimp only
      split
      · exact scanIndex_lt hb hy (by omega)
      · exact scanIndex_lt hb hy hx
    · dsimp only
      split
      · exact scanIndex_lt hb (by omega) hx
      · exact scanIndex_lt hb hy hx
  · intro b y x b' y' x' hb hy hx hb' hy' hx' e
    have hux := unroll_lt h hx
    have huy := unroll_lt h hy
    have hux' := unroll_lt h hx'
    have huy' := unroll_lt h hy'
    unfold windingIndex at e
    cases w
    · exact scanIndex_inj hy hx hy' hx' e
    · dsimp only at e
      split at e <;> split at e
      · obtain ⟨e1, e2, e3⟩ := scanIndex_inj hy (by omega) hy' (by omega) e
        exact ⟨e1, e2, unroll_inj h hx hx' (by omega)⟩
      · obtain ⟨e1, e2, e3⟩ := scanIndex_inj hy (by omega) hy' (by omega) e
        omega
      · obtain ⟨e1, e2, e3⟩ := scanIndex_inj hy (by omega) hy' (by omega) e
        omega
      · exact scanIndex_inj hy hx hy' hx' e
    · dsimp only at e
      split at e <;> split at e
      · obtain ⟨e1, e2, e3⟩ := scanIndex_inj (by omega) hx (by omega) hx' e
        exact ⟨e1, unroll_inj h hy hy' (by omega), e3⟩
      · obtain ⟨e1, e2, e3⟩ := scanIndex_inj (by omega) hx (by omega) hx' e
        omega
      · obtain ⟨e1, e2, e3⟩ := scanIndex_inj (by omega) hx (by omega) hx' e
        omega
      · exact scanIndex_inj hy hx hy' hx' e
  · intro f h1 h2
    obtain ⟨b, y, x, hb, hy, hx, e⟩ := scanIndex_surj h1 h2
    unfold windingIndex
    cases w
    · exact ⟨b, y, x, hb, hy, hx, e⟩
    · dsimp only
      by_cases hp : y % 2 = 0
      · obtain ⟨i, hi, hu⟩ := unroll_surj h (show nx - 1 - x < nx by omega)
        refine ⟨b, y, i, hb, hy, hi, ?_⟩
        rw [if_pos hp, hu, show nx - 1 - (nx - 1 - x) = x by omega, e]
      · exact ⟨b, y, x, hb, hy, hx, by rw [if_neg hp, e]⟩
    · dsimp only
      by_cases hp : x % 2 = 0
      · obtain ⟨i, hi, hu⟩ := unroll_surj h (show ny - 1 - y < ny by omega)
        refine ⟨b, i, x, hb, hi, hx, ?_⟩
        rw [if_pos hp, hu, show ny - 1 - (ny - 1 - y) = y by omega, e]
      · exact ⟨b, y, x, hb, hy, hx, by rw [if_neg hp, e]⟩

/-- C30: if the scan lies inside the recording, every scan point gets a frame. -/
theorem C30_inside {α : Type} (frames : List α) (w : Winding) (h : Int) (start nb ny nx : Nat)
    (hfit : scanFits start nb ny nx frames.length = true) :
    ∀ b y x, b < nb → y < ny → x < nx → (scanFrame frames w h start ny nx b y x).isSome := by
  intro b y x hb hy hx
  have h1 := ((C30_permutation w h start nb ny nx).1 b y x hb hy hx).2
  have h2 : start + nb * ny * nx ≤ frames.length := by simpa [scanFits] using hfit
  unfold scanFrame
  rw [List.getElem?_eq_getElem (by omega)]
  rfl

/-- A snake scan along x: lines one after the other; the lines with even number from right to left,
the others from left to right. The position at which the frame number `t` of the scan is taken, as
(line, column). -/
def snakeX (nx t : Nat) : Nat × Nat :=
  (t / nx, if t / nx % 2 = 0 then nx - 1 - t % nx else t % nx)

/-- C30: without hysteresis the correction along x undoes a snake scan: the frame given to the
scan point `(y, x)` is the one taken there. -/
theorem C30_undoes_snake_x (start ny nx y x : Nat) (hx : x < nx) :
    ∃ t, windingIndex .x 0 start ny nx 0 y x = start + t ∧ snakeX nx t = (y, x) := by
  have hu : unroll nx 0 x = x := by
    unfold unroll
    rw [Int.sub_zero, Int.emod_eq_of_lt (by omega) (by omega)]
    simp
  have hdm : ∀ i, i < nx → (y * nx + i) / nx = y ∧ (y * nx + i) % nx = i := by
    intro i hi
    constructor
    · rw [Nat.add_comm, Nat.add_mul_div_right _ _ (by omega), Nat.div_eq_of_lt hi, Nat.zero_add]
    · rw [Nat.add_comm, Nat.add_mul_mod_self_right, Nat.mod_eq_of_lt hi]
  by_cases hp : y % 2 = 0
  · refine ⟨y * nx + (nx - 1 - x), ?_, ?_⟩
    · simp [windingIndex, hp, hu, scanIndex]
    · obtain ⟨e1, e2⟩ := hdm (nx - 1 - x) (by omega)
      unfold snakeX
      rw [e1, e2, if_pos hp]
      congr 1
      omega
  · refine ⟨y * nx + x, ?_, ?_⟩
    · simp [windingIndex, hp, scanIndex]
    · obtain ⟨e1, e2⟩ := hdm x hx
      unfold snakeX
      rw [e1, e2, if_neg hp]

/-- C30: a snake scan that starts from left to right comes out mirrored, but consistently so. -/
theorem C30_other_snake_mirrored (start ny nx y x : Nat) (hx : x < nx) :
    ∃ t, windingIndex .x 0 start ny nx 0 y x = start + t ∧
      (t / nx, if t / nx % 2 = 0 then t % nx else nx - 1 - t % nx) = (y, nx - 1 - x) := by
  obtain ⟨t, h1, h2⟩ := C30_undoes_snake_x start ny nx y x hx
  refine ⟨t, h1, ?_⟩
  have hm : t % nx < nx := Nat.mod_lt _ (by omega)
  unfold snakeX at h2
  simp only [Prod.mk.injEq] at h2 ⊢
  refine ⟨h2.1, ?_⟩
  split
  · rename_i hp
    rw [if_pos hp] at h2
    omega
  · rename_i hp
    rw [if_neg hp] at h2
    omega

/-- A snake scan along y: columns one after the other, the even ones from the bottom up. -/
def snakeY (ny t : Nat) : Nat × Nat :=
  (if t / ny % 2 = 0 then ny - 1 - t % ny else t % ny, t / ny)

/-- The correction along y does not undo a scan whose fast direction is y: the frames are still taken
line by line. -/
theorem C30_fails_snake_y :
    ¬ ∀ start ny nx y x : Nat, y < ny → x < nx →
      ∃ t, windingIndex .y 0 start ny nx 0 y x = start + t ∧ snakeY ny t = (y, x) := by
  intro h
  obtain ⟨t, h1, h2⟩ := h 0 2 2 0 1 (by decide) (by decide)
  have : t = 1 := by
    have e : windingIndex .y 0 0 2 2 0 0 1 = 1 := by decide
    omega
  subst this
  exact absurd h2 (by decide)

/-! ### C31 -/

/-- C31, partial: the recording read after a write is the one written, if no file of an earlier
recording follows the last file written. Missing: longer earlier recordings, see
`C31_fails_shorter_recording`. -/
theorem C31_rewrite_partial {h : Header} {fh : Nat → List UInt8} {limit : Option Nat}
    {recSize : Nat} {frames : List (List UInt8)} {files : List (List UInt8)} (disk : Disk)
    (hr : Recording h fh recSize frames) (hw : writeFiles h fh limit recSize frames = .ok files)
    (hdisk : ∀ f, disk[files.length]? ≠ some (some f)) :
    readFrames (overwrite disk files) = .ok frames := by
  unfold overwrite
  by_cases hd : files.length < disk.length
  · refine readFrames_writeFiles hr hw (fun hh => ?_)
    exfalso
    apply hh
    rw [List.head?_drop]
    cases hx : disk[files.length]? with
    | none => rw [List.getElem?_eq_none_iff] at hx; omega
    | some o =>
      cases o with
      | none => rfl
      | some f => exact absurd hx (hdisk f)
  · refine readFrames_writeFiles hr hw (fun _ => ?_)
    exact List.drop_eq_nil_of_le (by omega)

/-- A history of recordings written under one name on an empty disk. -/
def history (ws : List (List (List UInt8))) : Disk := ws.foldl overwrite []

theorem length_history (ws : List (List (List UInt8))) (disk : Disk) (n : Nat)
    (hd : disk.length ≤ n) (h : ∀ w ∈ ws, w.length ≤ n) : (ws.foldl overwrite disk).length ≤ n := by
  induction ws generalizing disk with
  | nil => exact hd
  | cons w ws ih =>
    apply ih
    · have := h w (List.mem_cons_self ..)
      simp only [overwrite, List.length_append, List.length_map, List.length_drop]
      omega
    · exact fun v hv => h v (List.mem_cons_of_mem _ hv)

/-- C31, partial: over a whole history, reading returns the last recording if no earlier one was
stored in more files. -/
theorem C31_history_partial {h : Header} {fh : Nat → List UInt8} {limit : Option Nat}
    {recSize : Nat} {frames : List (List UInt8)} {files : List (List UInt8)}
    (ws : List (List (List UInt8)))
    (hr : Recording h fh recSize frames) (hw : writeFiles h fh limit recSize frames = .ok files)
    (hshort : ∀ w ∈ ws, w.length ≤ files.length) :
    readFrames (history (ws ++ [files])) = .ok frames := by
  unfold history
  rw [List.foldl_append]
  refine C31_rewrite_partial _ hr hw (fun f hf => ?_)
  have := length_history ws [] files.length (by simp) hshort
  have hlt := (List.getElem?_eq_some_iff.1 hf).1
  omega

/-- After a long recording a short one: reading returns frames of both. -/
theorem C31_fails_shorter_recording :
    ((writeFiles sampleHeader sampleFh (some 350) 62 sampleFrames) >>= fun old =>
      (writeFiles sampleHeader sampleFh (some 350) 62 [[42, 43]]) >>= fun new =>
        readFrames (overwrite (old.map some) new)) =
      .ok [[42, 43], [3, 4], [5, 6], [7, 8], [9, 10]] := by decide +kernel

end Verif.Props.Tvips
