import Verif.Lemmas.HypermapMap
/-! C49, C50, C56: the decoders of Bruker maps. -/
namespace Verif.Props.Hypermap
open Verif Verif.Hypermap

/-! ### C50 -/

/-- C50: the compiled decoder returns the stored counts, for every way the stream is cut into blocks.
Missing from the full claim: pixels longer than a block (`C50_fails_small_blocks`), values of 4 bytes
(`C49_fails_wide`) and packed data of 65536 bytes or more (`C49_fails_size`). -/
theorem C50_compiled_partial {chnk M cutoff ds width : Nat} {blocks : List (List UInt8)} {junk trailing : List UInt8}
    {lines : List (List Px)} (hc : 0x1a0 ≤ chnk) (hcut : Cut chnk blocks)
    (hB : blocks.flatten = mapBytes width junk lines ++ trailing) (hj : junk.length = 0x1a0 - 8) (hds : 0 < ds)
    (hn : lines.length < 2 ^ 31)
    (hl : ∀ l ∈ lines, l.length < 2 ^ 31 ∧
      ∀ p ∈ l, p.Wf ∧ p.content.size ≤ chnk ∧ p.content.Compiled ∧ p.x < width) :
    cyParse blocks chnk M ((lines.length + ds - 1) / ds) ((width + ds - 1) / ds) cutoff ds =
      .ok (image M cutoff ds width lines) :=
  cyParse_ok hc hcut hB hj hds hn hl

/-- C50: the Python decoder returns the stored counts, for every way the stream is cut into blocks, if the
last block is not used up. Missing from the full claim: that case (`C50_fails_exact`), pixels longer than a
block, and the pixels that the Python decoder does not read as stored (`C49_fails_last_channel`,
`C49_fails_beyond`, `C49_fails_twice`). -/
theorem C50_python_partial {chnk M cutoff ds width : Nat} {blocks : List (List UInt8)} {junk trailing : List UInt8}
    {lines : List (List Px)} (hc : 0x1a0 ≤ chnk) (hcut : Cut chnk blocks)
    (hB : blocks.flatten = mapBytes width junk lines ++ trailing) (hj : junk.length = 0x1a0 - 8) (hds : 0 < ds)
    (hroom : (mapBytes width junk lines).length < blocks.length * chnk)
    (hn : lines.length < 2 ^ 31) (hwd : width < 2 ^ 31)
    (hl : ∀ l ∈ lines, l.length < 2 ^ 31 ∧ (ds = 1 → (l.map Px.x).Nodup) ∧
      ∀ p ∈ l, p.Wf ∧ p.content.Small chnk ∧ p.Python cutoff ∧ p.x < width ∧ (ds = 1 → p.content.Fits M cutoff)) :
    pyParse blocks chnk M ((lines.length + ds - 1) / ds) ((width + ds - 1) / ds) cutoff ds =
      .ok (image M cutoff ds width lines) :=
  pyParse_ok hc hcut hB hj hds hroom hn hwd hl

/-- C50: two ways to cut a stream give the same result, in both decoders. -/
theorem C50_cut_partial {c c' M cutoff ds width : Nat} {blocks blocks' : List (List UInt8)} {junk : List UInt8}
    {lines : List (List Px)} (hc : 0x1a0 ≤ c) (hc' : 0x1a0 ≤ c') (hcut : Cut c blocks) (hcut' : Cut c' blocks')
    (hB : blocks.flatten = mapBytes width junk lines) (hB' : blocks'.flatten = mapBytes width junk lines)
    (hj : junk.length = 0x1a0 - 8) (hds : 0 < ds) (hn : lines.length < 2 ^ 31)
    (hl : ∀ l ∈ lines, l.length < 2 ^ 31 ∧
      ∀ p ∈ l, p.Wf ∧ p.content.size ≤ c ∧ p.content.size ≤ c' ∧ p.content.Compiled ∧ p.x < width) :
    cyParse blocks c M ((lines.length + ds - 1) / ds) ((width + ds - 1) / ds) cutoff ds =
      cyParse blocks' c' M ((lines.length + ds - 1) / ds) ((width + ds - 1) / ds) cutoff ds := by
  rw [C50_compiled_partial (trailing := []) hc hcut (by rw [hB, List.append_nil]) hj hds hn
      (fun l h => ⟨(hl l h).1, fun p hp => by
        obtain ⟨h1, h2, h3, h4, h5⟩ := (hl l h).2 p hp
        exact ⟨h1, h2, h4, h5⟩⟩),
    C50_compiled_partial (trailing := []) hc' hcut' (by rw [hB', List.append_nil]) hj hds hn
      (fun l h => ⟨(hl l h).1, fun p hp => by
        obtain ⟨h1, h2, h3, h4, h5⟩ := (hl l h).2 p hp
        exact ⟨h1, h3, h4, h5⟩⟩)]

/-- A map of two lines and three columns: pulses of 16 and 12 bits and packed spectra. -/
def exLines : List (List Px) :=
  [[⟨0, 6, 0, [0, 0, 0, 0], 0, [0, 0], .pulses16 [1, 4, 1, 5]⟩,
    ⟨2, 6, 0, [0, 0, 0, 0], 1, [0, 0], .pulses12 [5, 0, 3, 3, 2]⟩],
   [⟨1, 6, 5, [0, 0, 0, 0], 2, [0, 0],
      .packed [.zeros 1, .nibbles 2 [3, 0, 15], .wide 2 300 [7]] [5, 5, 0]⟩]]

def exJunk : List UInt8 := List.replicate (0x1a0 - 8) 0

theorem ex_junk : exJunk.length = 0x1a0 - 8 := List.length_replicate ..

/-- The stream in blocks of 420 bytes: within the first line. -/
def exBlocks : List (List UInt8) :=
  [(mapBytes 3 exJunk exLines).take 420, (mapBytes 3 exJunk exLines).drop 420]

theorem ex_flatten : exBlocks.flatten = mapBytes 3 exJunk exLines ++ [] := by decide +kernel

theorem ex_cut : Cut 420 exBlocks := by
  refine ⟨?_, ?_, ?_⟩ <;> decide +kernel

theorem ex_all : ∀ l ∈ exLines, l.length < 2 ^ 31 ∧ (l.map Px.x).Nodup ∧
    ∀ p ∈ l, p.Wf ∧ p.content.Small 420 ∧ p.Python 6 ∧ p.x < 3 ∧ p.content.Fits (2 ^ 16) 6 ∧ p.content.Compiled := by
  intro l hl
  simp only [exLines, List.mem_cons, List.not_mem_nil, or_false] at hl
  rcases hl with rfl | rfl
  · refine ⟨by decide, by decide, ?_⟩
    intro p hp
    simp only [List.mem_cons, List.not_mem_nil, or_false] at hp
    rcases hp with rfl | rfl
    · refine ⟨⟨by decide, by decide, by decide, rfl, rfl, rfl, by decide, by decide⟩, ⟨by decide, by decide⟩,
        ⟨by decide, by decide, by decide⟩, by decide, trivial, trivial⟩
    · refine ⟨⟨by decide, by decide, by decide, rfl, rfl, rfl, by decide, by decide⟩, ⟨by decide, by decide⟩,
        ⟨by decide, by decide, by decide⟩, by decide, trivial, trivial⟩
  · refine ⟨by decide, by decide, ?_⟩
    intro p hp
    simp only [List.mem_cons, List.not_mem_nil, or_false] at hp
    subst hp
    refine ⟨⟨by decide, by decide, by decide, rfl, ⟨by decide, by decide⟩, rfl, ?_, by decide, by decide, by decide⟩,
      ⟨by decide, by decide⟩, ⟨by decide, by decide, by decide⟩, by decide, ?_, ?_, by decide⟩
    · intro b hb
      simp only [List.mem_cons, List.not_mem_nil, or_false] at hb
      rcases hb with rfl | rfl | rfl
      · show 1 < 256; decide
      · refine ⟨by decide, by decide, by decide⟩
      · refine ⟨by decide, by decide, by decide, by decide⟩
    · intro c hc
      revert c
      decide +kernel
    · intro b hb g vs e
      simp only [List.mem_cons, List.not_mem_nil, or_false] at hb
      subst e
      rcases hb with h | h | h <;> cases h

/-- The hypotheses of `C50_compiled_partial`, and the result. -/
example : cyParse exBlocks 420 (2 ^ 16) 2 3 6 1 =
    .ok [[0, 2, 0, 0, 1, 1], [0, 0, 0, 0, 0, 0], [1, 0, 1, 2, 0, 1],
         [0, 0, 0, 0, 0, 0], [1, 5, 2, 17, 307, 2], [0, 0, 0, 0, 0, 0]] := by
  have := C50_compiled_partial (M := 2 ^ 16) (cutoff := 6) (ds := 1) (by decide) ex_cut ex_flatten ex_junk
    (by decide) (by decide) (fun l h => ⟨(ex_all l h).1, fun p hp => by
      obtain ⟨h1, h2, h3, h4, h5, h6⟩ := (ex_all l h).2.2 p hp
      exact ⟨h1, h2.1, h6, h4⟩⟩)
  exact this.trans (by decide +kernel)

/-- Two by two pixels summed. -/
example : cyParse exBlocks 420 (2 ^ 16) 1 2 6 2 = .ok [[1, 7, 2, 17, 308, 3], [1, 0, 1, 2, 0, 1]] := by
  have := C50_compiled_partial (M := 2 ^ 16) (cutoff := 6) (ds := 2) (by decide) ex_cut ex_flatten ex_junk
    (by decide) (by decide) (fun l h => ⟨(ex_all l h).1, fun p hp => by
      obtain ⟨h1, h2, h3, h4, h5, h6⟩ := (ex_all l h).2.2 p hp
      exact ⟨h1, h2.1, h6, h4⟩⟩)
  exact this.trans (by decide +kernel)

/-- The hypotheses of `C50_python_partial`, and the result. -/
example : pyParse exBlocks 420 (2 ^ 16) 2 3 6 1 =
    .ok [[0, 2, 0, 0, 1, 1], [0, 0, 0, 0, 0, 0], [1, 0, 1, 2, 0, 1],
         [0, 0, 0, 0, 0, 0], [1, 5, 2, 17, 307, 2], [0, 0, 0, 0, 0, 0]] := by
  have := C50_python_partial (M := 2 ^ 16) (cutoff := 6) (ds := 1) (by decide) ex_cut ex_flatten ex_junk
    (by decide) (by decide +kernel) (by decide) (by decide) (fun l h => ⟨(ex_all l h).1, fun _ => (ex_all l h).2.1,
      fun p hp => by
        obtain ⟨h1, h2, h3, h4, h5, h6⟩ := (ex_all l h).2.2 p hp
        exact ⟨h1, h2, h3, h4, fun _ => h5⟩⟩)
  exact this.trans (by decide +kernel)

/-- C50 fails: the Python decoder asks for a block after the last one if the last block is full and used up;
cut at another place the same stream is read. -/
theorem C50_fails_exact :
    pyParse [mapBytes 1 exJunk [[]]] (mapBytes 1 exJunk [[]]).length 256 1 1 3 1 = .error .stopIteration ∧
    pyParse [mapBytes 1 exJunk [[]]] ((mapBytes 1 exJunk [[]]).length + 1) 256 1 1 3 1 = .ok [[0, 0, 0]] ∧
    cyParse [mapBytes 1 exJunk [[]]] (mapBytes 1 exJunk [[]]).length 256 1 1 3 1 = .ok [[0, 0, 0]] := by
  refine ⟨?_, ?_, ?_⟩ <;> decide +kernel

/-- A map of a single pixel. -/
def one (p : Px) : List UInt8 := mapBytes 1 exJunk [[p]]

/-- A pixel with 450 pulses in channel 0 and one in channel 1. -/
def longPx : Px := ⟨0, 2, 0, [0, 0, 0, 0], 0, [0, 0], .pulses16 (1 :: List.replicate 450 0)⟩

/-- C50 fails: only one block is fetched at a time, so pixels longer than that are not read completely: the
compiled decoder reads beyond its buffer (here an error), the Python decoder counts some of the pulses
only and then stops. In larger blocks the same stream is read. -/
theorem C50_fails_small_blocks :
    (one longPx).length = 1344 ∧
    Cut 416 [(one longPx).take 416, ((one longPx).drop 416).take 416, ((one longPx).drop 832).take 416,
      (one longPx).drop 1248] ∧
    cyParse [(one longPx).take 416, ((one longPx).drop 416).take 416, ((one longPx).drop 832).take 416,
      (one longPx).drop 1248] 416 1000 1 1 2 1 = .error .runtimeError ∧
    pyParse [(one longPx).take 416, ((one longPx).drop 416).take 416, ((one longPx).drop 832).take 416,
      (one longPx).drop 1248] 416 1000 1 1 2 1 = .ok [[402, 1]] ∧
    cyParse [one longPx] 2000 1000 1 1 2 1 = .ok [[450, 1]] ∧
    pyParse [one longPx] 2000 1000 1 1 2 1 = .ok [[450, 1]] := by
  refine ⟨?_, ⟨?_, ?_, ?_, ?_, ?_⟩, ?_, ?_, ?_, ?_⟩ <;> decide +kernel

/-! ### C49 -/

/-- C49: both decoders return the same spectrum image, for all maps that both can read. Missing from the full
claim: see the cases below. -/
theorem C49_agree_partial {chnk M cutoff ds width : Nat} {blocks : List (List UInt8)} {junk trailing : List UInt8}
    {lines : List (List Px)} (hc : 0x1a0 ≤ chnk) (hcut : Cut chnk blocks)
    (hB : blocks.flatten = mapBytes width junk lines ++ trailing) (hj : junk.length = 0x1a0 - 8) (hds : 0 < ds)
    (hroom : (mapBytes width junk lines).length < blocks.length * chnk)
    (hn : lines.length < 2 ^ 31) (hwd : width < 2 ^ 31)
    (hl : ∀ l ∈ lines, l.length < 2 ^ 31 ∧ (ds = 1 → (l.map Px.x).Nodup) ∧
      ∀ p ∈ l, p.Wf ∧ p.content.Small chnk ∧ p.content.Compiled ∧ p.Python cutoff ∧ p.x < width ∧
        (ds = 1 → p.content.Fits M cutoff)) :
    ∃ im, cyParse blocks chnk M ((lines.length + ds - 1) / ds) ((width + ds - 1) / ds) cutoff ds = .ok im ∧
      pyParse blocks chnk M ((lines.length + ds - 1) / ds) ((width + ds - 1) / ds) cutoff ds = .ok im :=
  ⟨image M cutoff ds width lines,
    C50_compiled_partial hc hcut hB hj hds hn (fun l h => ⟨(hl l h).1, fun p hp => by
      obtain ⟨h1, h2, h3, h4, h5, h6⟩ := (hl l h).2.2 p hp
      exact ⟨h1, h2.1, h3, h5⟩⟩),
    C50_python_partial hc hcut hB hj hds hroom hn hwd (fun l h => ⟨(hl l h).1, (hl l h).2.1, fun p hp => by
      obtain ⟨h1, h2, h3, h4, h5, h6⟩ := (hl l h).2.2 p hp
      exact ⟨h1, h2, h4, h5, h6⟩⟩)⟩

/-- C49: whatever the bytes, if the Python decoder reads 12-bit pulses, the compiled one reads the same. -/
theorem C49_twelve {data R : List UInt8} {n : Nat} {ps : List Nat} (h : py12 data n = .ok ps) :
    ps.length = n ∧ ∀ k q, ps[k]? = some q → chan12 (data ++ R) k = .ok q :=
  both12 h

example : ∃ ps, py12 [0xab, 0xcd, 0xef, 0x01, 0x23, 0x45] 4 = .ok ps ∧ ps = [0xcda, 0xb01, 0xef4, 0x523] :=
  ⟨_, rfl, rfl⟩

/-- The hypotheses of `C49_agree_partial`. -/
example : ∃ im, cyParse exBlocks 420 (2 ^ 16) 1 2 6 2 = .ok im ∧ pyParse exBlocks 420 (2 ^ 16) 1 2 6 2 = .ok im := by
  obtain ⟨im, h1, h2⟩ := C49_agree_partial (M := 2 ^ 16) (cutoff := 6) (ds := 2) (by decide) ex_cut ex_flatten ex_junk
    (by decide) (by decide +kernel) (by decide) (by decide) (fun l h => ⟨(ex_all l h).1, fun e => absurd e (by decide),
      fun p hp => by
        obtain ⟨h1, h2, h3, h4, h5, h6⟩ := (ex_all l h).2.2 p hp
        exact ⟨h1, h2, h6, h3, h4, fun e => absurd e (by decide)⟩⟩)
  exact ⟨im, h1, h2⟩

/-- C49 fails: the Python decoder makes spectra one channel too short; if there is no pulse in the last
channel it fails, or, if there are two channels, repeats the first. -/
theorem C49_fails_last_channel :
    (cyParse [one ⟨0, 5, 0, [0, 0, 0, 0], 0, [0, 0], .pulses16 [0, 1]⟩] 2000 256 1 1 5 1 = .ok [[1, 1, 0, 0, 0]] ∧
      pyParse [one ⟨0, 5, 0, [0, 0, 0, 0], 0, [0, 0], .pulses16 [0, 1]⟩] 2000 256 1 1 5 1 = .error .valueError) ∧
    cyParse [one ⟨0, 2, 0, [0, 0, 0, 0], 0, [0, 0], .pulses16 [0]⟩] 2000 256 1 1 2 1 = .ok [[1, 0]] ∧
    pyParse [one ⟨0, 2, 0, [0, 0, 0, 0], 0, [0, 0], .pulses16 [0]⟩] 2000 256 1 1 2 1 = .ok [[1, 1]] := by
  refine ⟨⟨?_, ?_⟩, ?_, ?_⟩ <;> decide +kernel

/-- C49 fails: pulses beyond the number of channels of the pixel are ignored by the Python decoder only. -/
theorem C49_fails_beyond :
    cyParse [one ⟨0, 2, 0, [0, 0, 0, 0], 0, [0, 0], .pulses16 [0, 1, 3]⟩] 2000 256 1 1 5 1 = .ok [[1, 1, 0, 1, 0]] ∧
    pyParse [one ⟨0, 2, 0, [0, 0, 0, 0], 0, [0, 0], .pulses16 [0, 1, 3]⟩] 2000 256 1 1 5 1 = .ok [[1, 1, 0, 0, 0]] := by
  refine ⟨?_, ?_⟩ <;> decide +kernel

/-- C49 fails: if a pixel is stored twice the Python decoder keeps the second spectrum, the compiled one
the sum. -/
theorem C49_fails_twice :
    let p : Px := ⟨0, 2, 0, [0, 0, 0, 0], 0, [0, 0], .pulses16 [0, 1]⟩
    cyParse [mapBytes 1 exJunk [[p, p]]] 2000 256 1 1 2 1 = .ok [[2, 2]] ∧
    pyParse [mapBytes 1 exJunk [[p, p]]] 2000 256 1 1 2 1 = .ok [[1, 1]] := by
  refine ⟨?_, ?_⟩ <;> decide +kernel

/-- A pixel with two values of 4 bytes. -/
def wideContent : Content := .packed [.wide 4 0 [1, 2]] []

/-- C49 fails: the compiled decoder takes values of 4 bytes from every second byte (`i * 2` for `i * 4`). -/
theorem C49_fails_wide :
    (cyContent 2000 (2 ^ 32) 2 2 0 wideContent.size ⟨[], wideContent.data ++ wideContent.tail, 2000⟩ [0, 0]).map (·.1) =
      .ok [1, 131072] ∧
    (pyContent 2000 ⟨0, 2, 2, 2, 0, wideContent.size⟩ ⟨[], wideContent.data ++ wideContent.tail, 2000⟩).map (·.1.1) =
      .ok [1, 2] := by
  refine ⟨?_, ?_⟩
  · have h0 : ∀ src ch dest, cyInstr (2 ^ 32) 2 0 src ch dest = .ok dest := by
      intro src ch dest
      rw [cyInstr, if_pos rfl]
    have h1 : cyInstr (2 ^ 32) 2 18 (wideContent.data ++ wideContent.tail) 0 [0, 0] = .ok [1, 131072] := by
      rw [cyInstr, if_neg (by decide), show cyBunch (2 ^ 32) 2 (wideContent.data ++ wideContent.tail) 0 [0, 0] =
        .ok ([1, 131072], 2, 16) by decide +kernel]
      exact h0 ..
    unfold cyContent
    rw [if_neg (by decide), if_neg (by decide), if_neg (by decide),
      show cyPtr 2000 (wideContent.size - 4) ⟨[], wideContent.data ++ wideContent.tail, 2000⟩ =
        .ok (wideContent.data ++ wideContent.tail, ⟨[], wideContent.tail, 1982⟩) by rfl]
    dsimp only
    rw [show (wideContent.size - 4) % 65536 = 18 by decide, h1]
    rfl
  · have h0 : ∀ buf, pyInstr 0 buf = .ok ([], 0) := by
      intro buf
      rw [pyInstr, if_pos rfl]
    have h1 : pyInstr 18 (wideContent.data ++ wideContent.tail) = .ok ([1, 2], 18) := by
      rw [pyInstr, if_neg (by decide), show pyBunch (wideContent.data ++ wideContent.tail) =
        .ok ([1, 2], 16) by decide +kernel]
      dsimp only
      rw [h0]
      rfl
    unfold pyContent
    dsimp only
    rw [show pyNeed 2000 wideContent.size ⟨[], wideContent.data ++ wideContent.tail, 2000⟩ =
      .ok ⟨[], wideContent.data ++ wideContent.tail, 2000⟩ by rfl]
    dsimp only
    rw [if_neg (by decide), if_neg (by decide), show wideContent.size - 4 = 18 by decide, h1]
    rfl

/-- C49 fails: the size of packed data is a number of 16 bits in the compiled decoder, so the counts of a
pixel with 65536 bytes of packed data are left out. -/
theorem C49_fails_size {chnk M cutoff flag : Nat} {bs : List Bunch} {s : Src} {R : List UInt8} {dest : List Nat}
    (hf : 1 < flag) (hs : (bs.flatMap Bunch.bytes).length = 65536) (hc : 65536 ≤ chnk)
    (h : Rep chnk s ((Content.packed bs []).data ++ ((Content.packed bs []).tail ++ R))) :
    ∃ s', cyContent chnk M cutoff flag 0 (Content.packed bs []).size s dest = .ok (dest, s') ∧ Rep chnk s' R := by
  have hsz : (Content.packed bs []).size = 65540 := by
    show (bs.flatMap Bunch.bytes).length + 4 = _
    omega
  obtain ⟨src, s1, e1, r1⟩ := cyPtr_ok h hs hc
  obtain ⟨s2, e2, r2⟩ := cySkip_ok (n := 4) r1 rfl (by omega)
  refine ⟨s2, ?_, r2⟩
  unfold cyContent
  rw [if_neg (by omega), if_neg (by omega), if_neg (by omega), hsz, e1]
  dsimp only
  rw [cyInstr, if_pos rfl]
  dsimp only
  rw [if_neg (by omega), e2]

theorem flatMap_replicate_length {α β : Type} (f : α → List β) (a : α) :
    ∀ n, ((List.replicate n a).flatMap f).length = n * (f a).length
  | 0 => by simp
  | n + 1 => by
    rw [List.replicate_succ, List.flatMap_cons, List.length_append, flatMap_replicate_length f a n, Nat.add_mul]
    omega

example : ((List.replicate 16384 (Bunch.nibbles 1 [1])).flatMap Bunch.bytes).length = 65536 ∧
    (Content.packed (List.replicate 16384 (Bunch.nibbles 1 [1])) []).count 0 = 2 := by
  refine ⟨flatMap_replicate_length _ _ _, ?_⟩
  show ((List.replicate 16384 (Bunch.nibbles 1 [1])).flatMap Bunch.values)[0]?.getD 0 + 0 = 2
  rw [show 16384 = 16383 + 1 from rfl, List.replicate_succ, List.flatMap_cons]
  rfl

/-! ### C56 -/

/-- C56: the number type is large enough for the estimate, if it is unsigned and 32 bits are. -/
theorem C56_estimate_partial (top width height ds : Nat) (forNumpy : Bool) (h : forNumpy = false ∨ ds ≤ 1)
    (hr : top / width / height * 2 * ds * ds < 2 ^ 32) :
    top / width / height * 2 * ds * ds < 2 ^ depth top width height ds forNumpy := by
  unfold depth
  generalize top / width / height * 2 * ds * ds = roof at *
  have hs : ¬ (forNumpy = true ∧ 1 < ds) := by
    rintro ⟨h1, h2⟩
    rcases h with h | h
    · rw [h] at h1; cases h1
    · omega
  simp only [hs, if_false]
  split
  · split
    · exact hr
    · norm_num; omega
  · norm_num; omega

/-- C56: if no count is above the estimate, the compiled decoder returns the counts themselves. Missing from
the full claim: maps with counts above the estimate, `C56_fails_hot`. -/
theorem C56_counts_partial {chnk top cutoff ds width : Nat} {blocks : List (List UInt8)} {junk trailing : List UInt8}
    {lines : List (List Px)} (hc : 0x1a0 ≤ chnk) (hcut : Cut chnk blocks)
    (hB : blocks.flatten = mapBytes width junk lines ++ trailing) (hj : junk.length = 0x1a0 - 8) (hds : 0 < ds)
    (hn : lines.length < 2 ^ 31)
    (hl : ∀ l ∈ lines, l.length < 2 ^ 31 ∧
      ∀ p ∈ l, p.Wf ∧ p.content.size ≤ chnk ∧ p.content.Compiled ∧ p.x < width)
    (hr : top / width / lines.length * 2 * ds * ds < 2 ^ 32)
    (ht : ∀ Y X c, c < cutoff → total ds Y X c 0 lines ≤ top / width / lines.length * 2 * ds * ds) :
    cyParse blocks chnk (2 ^ depth top width lines.length ds false) ((lines.length + ds - 1) / ds)
      ((width + ds - 1) / ds) cutoff ds = .ok (exactImage cutoff ds width lines) := by
  rw [C50_compiled_partial hc hcut hB hj hds hn hl]
  unfold image exactImage
  dsimp only
  congr 1
  refine List.map_congr_left fun j _ => List.map_congr_left fun c hcm => ?_
  refine Nat.mod_eq_of_lt (Nat.lt_of_le_of_lt (ht _ _ _ (List.mem_range.1 hcm)) ?_)
  exact C56_estimate_partial _ _ _ _ _ (.inl rfl) hr

/-- The hypotheses of `C56_counts_partial` on a map of one pixel. -/
example : cyParse [one ⟨0, 2, 0, [0, 0, 0, 0], 0, [0, 0], .pulses16 (List.replicate 300 1)⟩] 2000
    (2 ^ depth 300 1 1 1 false) 1 1 2 1 = .ok [[0, 300]] := by
  decide +kernel

/-- A map of 16 by 16 pixels, empty but for one pixel. -/
def hotLines : List (List Px) :=
  [⟨0, 1, 0, [0, 0, 0, 0], 0, [0, 0], .pulses16 (List.replicate 300 0)⟩] :: List.replicate 15 []

/-- C56 fails: the estimate is the mean of the pixels, doubled. The counts of a single bright pixel do not
fit, and wrap round without a warning. -/
theorem C56_fails_hot :
    sumSpectrum hotLines 0 = 300 ∧ depth 300 16 16 1 false = 8 ∧
    (cyParse [mapBytes 16 exJunk hotLines] 2000 (2 ^ 8) 16 16 1 1).map (·.head?) = .ok (some [44]) := by
  refine ⟨?_, ?_, ?_⟩ <;> decide +kernel

/-- C56 fails: signed types are chosen as if they held 0xEF, 0xEFFF and 0xEFFFFFFF; they are too small even
for the estimate. -/
theorem C56_fails_signed :
    100 / 1 / 1 * 2 * 2 * 2 = 800 ∧ depth 18 1 1 2 true = 8 ∧ ¬ (18 / 1 / 1 * 2 * 2 * 2 < 2 ^ 7) ∧
    depth 5000 1 1 2 true = 16 ∧ ¬ (5000 / 1 / 1 * 2 * 2 * 2 < 2 ^ 15) := by
  decide

end Verif.Props.Hypermap
