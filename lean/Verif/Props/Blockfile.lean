import Verif.Lemmas.Blockfile
/-!
C21-C24: blockfiles.

Hypotheses common to the theorems: `base.Fits` says that the header the writer starts from is a
valid 240-byte record (true for the default header and for any header read from a file).
-/
namespace Verif.Props.Blockfile
open Verif Verif.Blockfile

/-- The default header, `get_default_header` (blockfile/_api.py lines 98-111), with the
acquisition time left at bit pattern 0. -/
def defaultHeader : Header :=
  ⟨leVal [73, 77, 71, 66, 76, 79], 0x102, 0x1000, 0, 131141, 0, 0, 0, 0, 0, 0, 0, 0, 0, 0, 0,
    List.replicate 22 0⟩

theorem defaultHeader_fits : defaultHeader.Fits := by
  simp only [Header.Fits, Header.vals, widths, defaultHeader, List.replicate, List.cons_append,
    List.nil_append, List.forall₂_cons, List.forall₂_nil_right_iff]
  decide

/-- What `writeFile` puts into a file. -/
theorem writeFile_eq {big : Bool} {base : Header} {note : List Char} {navShape : List Nat}
    {sig : Nat × Nat} {sx sy sdp : Nat} {nav : List UInt8} {frames : List (List UInt8)}
    {f : List UInt8} (hb : base.Fits)
    (hw : writeFile big base note navShape sig sx sy sdp nav frames = .ok f) :
    ∃ h text, headerFromSignal base navShape sig sx sy sdp = .ok h ∧ h.Fits ∧
      text = (clipNote ((h.off1 : Int) - 240) note).flatMap utf8 ∧
      240 + text.length ≤ h.off1 ∧ h.off1 + nav.length ≤ h.off2 ∧ frames ≠ [] ∧
      f = encodeRec false widths h.vals ++ text ++ zeros (h.off1 - (240 + text.length)) ++ nav ++
        zeros (h.off2 - (h.off1 + nav.length)) ++ frameRecords big 0 frames := by
  unfold writeFile at hw
  split at hw
  · cases hw
  · rename_i h hh
    have hf := (fits_update hb hh).1
    simp only [head_length hf] at hw
    split at hw
    · cases hw
    · split at hw
      · cases hw
      · split at hw
        · cases hw
        · refine ⟨h, _, hh, hf, rfl, ?_, ?_, by assumption, ?_⟩
          · simp only [Nat.cast_ofNat] at *; omega
          · omega
          · cases hw; rfl

/-- C21: whenever a file is written, the header occupies the first 240 bytes, the note the bytes
from there on up to at most the first data offset, the virtual bright field image the bytes from
the first data offset up to at most the second data offset, and the frame records all bytes from
the second data offset on. The second data offset is even. -/
theorem C21_sections {big : Bool} {base : Header} {note : List Char} {navShape : List Nat}
    {sig : Nat × Nat} {sx sy sdp : Nat} {nav : List UInt8} {frames : List (List UInt8)}
    {f : List UInt8} (hb : base.Fits)
    (hw : writeFile big base note navShape sig sx sy sdp nav frames = .ok f) :
    ∃ h text, headerFromSignal base navShape sig sx sy sdp = .ok h ∧
      text = (clipNote ((h.off1 : Int) - 240) note).flatMap utf8 ∧
      f.take 240 = encodeRec false widths h.vals ∧
      240 + text.length ≤ h.off1 ∧ (f.drop 240).take text.length = text ∧
      h.off1 + nav.length ≤ h.off2 ∧ (f.drop h.off1).take nav.length = nav ∧
      f.drop h.off2 = frameRecords big 0 frames ∧ h.off2 ≤ f.length ∧ h.off2 % 2 = 0 := by
  obtain ⟨h, text, hh, hf, ht, h1, h2, -, hfe⟩ := writeFile_eq hb hw
  have hl := head_length hf
  have hoff := (fits_update hb hh).2.2.1
  refine ⟨h, text, hh, ht, ?_, h1, ?_, h2, ?_, ?_, ?_, ?_⟩
  · rw [hfe]; simp only [List.append_assoc]; exact List.take_left' hl
  · rw [hfe]; simp only [List.append_assoc]
    rw [List.drop_left' hl, List.take_left' rfl]
  · rw [hfe]; simp only [List.append_assoc]
    rw [← List.append_assoc, ← List.append_assoc, List.drop_left', List.take_left' rfl]
    simp [zeros, hl]; omega
  · rw [hfe]
    apply List.drop_left'
    simp [zeros, hl]; omega
  · rw [hfe]; simp [zeros, hl]; omega
  · rw [hoff]; unfold offset2; dsimp only; omega

/-- Scan width and height for the shape of the navigation dimensions: rows first; a line scan is one
row; no navigation dimension is a single position. -/
def ScanOf (navShape : List Nat) (nx ny : Nat) : Prop :=
  navShape = [ny, nx] ∨ (navShape = [nx] ∧ ny = 1) ∨ (navShape = [] ∧ nx = 1 ∧ ny = 1)

theorem scanSize_of {navShape : List Nat} {nx ny : Nat} (h : ScanOf navShape nx ny) :
    scanSize navShape = .ok (nx, ny) := by
  rcases h with rfl | ⟨rfl, rfl⟩ | ⟨rfl, rfl, rfl⟩ <;> rfl

/-- C21: nothing that fits the fields of the format is refused: with an ASCII note, a square
frame, one navigation byte per scan position and at least one frame, the file is written. -/
theorem C21_writes {big : Bool} {base : Header} {note : List Char} {navShape : List Nat}
    {n nx ny sx sy sdp : Nat} {nav : List UInt8} {frames : List (List UInt8)}
    (hb : base.Fits) (h240 : 240 ≤ base.off1) (hascii : ∀ c ∈ note, c.toNat < 128)
    (hs' : ScanOf navShape nx ny) (hx : nx < 2 ^ 16) (hy : ny < 2 ^ 16)
    (hn : n < 2 ^ 16) (ho : nx * ny + base.off1 + 15 < 2 ^ 32) (hsx : sx < 2 ^ 64)
    (hsy : sy < 2 ^ 64) (hsdp : sdp < 2 ^ 16) (hnav : nav.length = nx * ny) (hfr : frames ≠ []) :
    ∃ f, writeFile big base note navShape (n, n) sx sy sdp nav frames = .ok f := by
  have hs := scanSize_of hs'
  have hoff : offset2 nx ny base.off1 < 2 ^ 32 := by unfold offset2; dsimp only; omega
  have hge : nx * ny + base.off1 ≤ offset2 nx ny base.off1 := by unfold offset2; dsimp only; omega
  unfold writeFile
  have hh : ∃ h, headerFromSignal base navShape (n, n) sx sy sdp = .ok h := by
    unfold headerFromSignal
    rw [hs]
    dsimp only
    rw [if_neg (by simp), if_pos ⟨hx, hy, hn, hoff, hsx, hsy, hsdp⟩]
    exact ⟨_, rfl⟩
  obtain ⟨h, hh⟩ := hh
  obtain ⟨hf, e1, e2, e3, e4, e5⟩ := fits_update hb hh
  have hxy : h.nx = nx ∧ h.ny = ny := by
    rw [hs] at e5
    simp only [Except.ok.injEq, Prod.mk.injEq] at e5
    exact ⟨e5.1.symm, e5.2.symm⟩
  have e2' : h.off2 = offset2 nx ny base.off1 := by rw [e2, hxy.1, hxy.2]
  rw [hh]
  dsimp only
  rw [head_length hf]
  have hlen : ∀ s : List Char, (∀ c ∈ s, c.toNat < 128) → (s.flatMap utf8).length = s.length := by
    intro s
    induction s with
    | nil => intro; rfl
    | cons c s ih =>
      intro h
      have hc := h c (List.mem_cons_self ..)
      have : utf8 c = [UInt8.ofNat c.toNat] := by unfold utf8; simp only; rw [if_pos hc]
      simp [List.flatMap_cons, this, ih (fun d hd => h d (List.mem_cons_of_mem _ hd))]
  have hclip : ((clipNote ((h.off1 : Int) - (240 : Nat)) note).flatMap utf8).length ≤
      h.off1 - 240 := by
    unfold clipNote
    split
    · rw [hlen _ (fun c hc => hascii c (List.mem_of_mem_take hc))]
      simp only [List.length_take]
      omega
    · rw [hlen _ hascii]; omega
  rw [if_neg (by omega), if_neg (by rw [hnav]; omega), if_neg hfr]
  exact ⟨_, rfl⟩

/-- A small signal: scan 1 × 2 of 2 × 2 frames, written with the default header. -/
example : ∃ f, writeFile false defaultHeader ['h', 'i'] [1, 2] (2, 2) 0 0 5 [9, 9]
    [[1, 2, 3, 4], [5, 6, 7, 8]] = .ok f :=
  C21_writes (nx := 2) (ny := 1) defaultHeader_fits (by decide) (by decide) (.inl rfl) (by decide)
    (by decide) (by decide) (by decide) (by decide) (by decide) (by decide) rfl (by decide)

/-- C21: the data section is not on a 16-byte boundary, although the remainder by 16 is what the
writer looks at: it adds the remainder instead of completing it. -/
theorem C21_not_16_aligned : ∃ nx ny : Nat, offset2 nx ny 0x1000 % 16 ≠ 0 := ⟨1, 1, by decide⟩

/-- C22: a file written in the default byte order, cut off anywhere in the data section (`k` whole
frames and `r` further bytes), reads back with the scan and frame sizes it was written with; pixel
`p` of the frame at scan position `(y, x)` is the pixel written there when the frame is complete in
the file and 0 otherwise. -/
theorem C22_roundtrip_partial {base : Header} {note : List Char} {navShape : List Nat}
    {n m nx ny sx sy sdp : Nat} {nav : List UInt8} {frames : List (List UInt8)} {f : List UInt8}
    (hb : base.Fits) (hw : writeFile false base note navShape (n, m) sx sy sdp nav frames = .ok f)
    (hs' : ScanOf navShape nx ny) (hfr : ∀ p ∈ frames, p.length = n * n)
    (hcount : frames.length = ny * nx) {k r : Nat} (hk : k ≤ ny * nx) (hr : r < 6 + n * n) :
    ∃ h res, headerFromSignal base navShape (n, m) sx sy sdp = .ok h ∧
      readFile false (f.take (h.off2 + (k * (6 + n * n) + r))) = .ok res ∧
      res.header = h ∧ h.nx = nx ∧ h.ny = ny ∧ h.dpSz = n ∧ h.sx = sx ∧ h.sy = sy ∧ h.sdp = sdp ∧
      res.shape = [ny, nx, n, n].filter (· ≠ 1) ∧ res.data.length = ny * nx * (n * n) ∧
      ∀ y x p : Nat, y < ny → x < nx → p < n * n →
        res.data[(y * nx + x) * (n * n) + p]? =
          if y * nx + x < k then (frames[y * nx + x]?).bind (·[p]?) else some 0 := by
  have hs := scanSize_of hs'
  obtain ⟨h, text, hh, hf, ht, h1, h2, -, hfe⟩ := writeFile_eq hb hw
  obtain ⟨-, e1, e2, e3, e4, e5⟩ := fits_update hb hh
  have hl := head_length hf
  have hx : h.nx = nx ∧ h.ny = ny := by
    rw [hs] at e5
    simp only [Except.ok.injEq, Prod.mk.injEq] at e5
    exact ⟨e5.1.symm, e5.2.symm⟩
  have hother : h.sx = sx ∧ h.sy = sy ∧ h.sdp = sdp := by
    unfold headerFromSignal at hh
    split at hh
    · cases hh
    · split at hh
      · cases hh
      · split at hh
        · cases hh; exact ⟨rfl, rfl, rfl⟩
        · cases hh
  -- the beginning of the file, up to the data section
  have hpre : ∃ pre, pre.length = h.off2 ∧ f = pre ++ frameRecords false 0 frames ∧
      ∃ mid, pre = encodeRec false widths h.vals ++ mid := by
    refine ⟨_, ?_, hfe, text ++ (zeros (h.off1 - (240 + text.length)) ++ (nav ++
      zeros (h.off2 - (h.off1 + nav.length)))), ?_⟩
    · simp [zeros, hl]; omega
    · simp only [List.append_assoc]
  obtain ⟨pre, hpl, hfp, mid, hmid⟩ := hpre
  have hcut : f.take (h.off2 + (k * (6 + n * n) + r)) =
      pre ++ (frameRecords false 0 frames).take (k * (6 + n * n) + r) := by
    rw [hfp, ← hpl, List.take_length_add_append]
  have hread : readHeader false (pre ++ (frameRecords false 0 frames).take
      (k * (6 + n * n) + r)) = .ok h := by
    rw [hmid, List.append_assoc]
    exact readHeader_encode hf _
  have hframes : readFrames (6 + n * n) ((pre ++ (frameRecords false 0 frames).take
      (k * (6 + n * n) + r)).drop h.off2) = frames.take k := by
    rw [List.drop_left' hpl]
    exact readFrames_take false (n * n) frames 0 k r hfr (by omega) hr
  have hdp : h.dpSz = n := e3.symm
  have htl : (frames.take k).length = k := by simp; omega
  have hall : ∀ q ∈ frames.take k ++ List.replicate (ny * nx - k) (zeros (n * n)),
      q.length = n * n := by
    intro q hq
    rcases List.mem_append.1 hq with hq | hq
    · exact hfr q (List.mem_of_mem_take hq)
    · rw [List.eq_of_mem_replicate hq]; simp [zeros]
  have hres : readFile false (f.take (h.off2 + (k * (6 + n * n) + r))) =
      .ok ⟨h, readNote h.off1 (f.take (h.off2 + (k * (6 + n * n) + r))),
        [ny, nx, n, n].filter (· ≠ 1),
        (frames.take k ++ List.replicate (ny * nx - k) (zeros (n * n))).flatten⟩ := by
    rw [hcut]
    unfold readFile
    rw [hread]
    simp only [hdp, hframes, hx.1, hx.2, htl]
    split
    · rename_i hkk
      simp [hkk]
    · rw [if_pos (by omega)]
  refine ⟨h, _, hh, hres, rfl, hx.1, hx.2, hdp, hother.1, hother.2.1, hother.2.2, rfl, ?_, ?_⟩
  · have : ∀ (l : List (List UInt8)), (∀ q ∈ l, q.length = n * n) →
        l.flatten.length = l.length * (n * n) := by
      intro l
      induction l with
      | nil => intro; simp
      | cons a l ih =>
        intro h
        simp [ih (fun q hq => h q (List.mem_cons_of_mem _ hq)), h a (List.mem_cons_self ..),
          Nat.add_mul]
        omega
    dsimp only
    rw [this _ hall]
    simp only [List.length_append, htl, List.length_replicate]
    congr 1
    omega
  · intro y x p hy hxx hp
    have hpos : y * nx + x < ny * nx := by
      calc y * nx + x < y * nx + nx := by omega
        _ = (y + 1) * nx := by rw [Nat.add_mul, Nat.one_mul]
        _ ≤ ny * nx := Nat.mul_le_mul_right _ hy
    dsimp only
    rw [flatten_getElem (n * n) _ _ _ hall hp]
    split
    · rename_i hlt
      rw [List.getElem?_append_left (by omega), List.getElem?_take_of_lt hlt]
    · rw [List.getElem?_append_right (by omega), htl, List.getElem?_replicate,
        if_pos (by omega)]
      simp [zeros, hp]

/-- A default header for a 1 × 1 scan of 1 × 1 frames with the shortest possible offset. -/
def tinyHeader : Header := { defaultHeader with off1 := 240 }

/-- The header fields are always written little-endian: a file written with `endianness=">"` is
not read back by `endianness=">"`. -/
theorem C22_fails_big_endian :
    let file := writeFile true tinyHeader [] [1, 1] (1, 1) 0 0 5 [7] [[42]]
    (file >>= readFile false).toOption.map (·.data) = some [42] ∧
      (file >>= readFile true).toOption.map (·.data) ≠ some [42] := by
  decide +kernel

/-! ### Notes -/

theorem stripNul_id {s : List Char} (n : Nat) (hh : s.head? ≠ some '\x00')
    (hl : s.getLast? ≠ some '\x00') : stripNul (s ++ List.replicate n '\x00') = s := by
  unfold stripNul
  cases s with
  | nil =>
    have : (List.replicate n '\x00').dropWhile (· = '\x00') = [] := by
      induction n with
      | zero => rfl
      | succ n ih => simp [List.replicate_succ]
    simp only [List.nil_append, this]
    rfl
  | cons c s =>
    have hc : c ≠ '\x00' := by simpa using hh
    rw [List.cons_append, List.dropWhile_cons_of_neg (by simpa using hc), ← List.cons_append,
      List.reverse_append, List.reverse_replicate]
    have hrep : ∀ (n : Nat) (t : List Char), (List.replicate n '\x00' ++ t).dropWhile
        (· = '\x00') = t.dropWhile (· = '\x00') := by
      intro n t
      induction n with
      | zero => simp
      | succ n ih => simp [List.replicate_succ]
    rw [hrep]
    rw [← List.head?_reverse] at hl
    cases hrev : (c :: s).reverse with
    | nil => simp at hrev
    | cons d t =>
      rw [hrev] at hl
      have hd : d ≠ '\x00' := by simpa using hl
      rw [List.dropWhile_cons_of_neg (by simpa using hd), ← hrev, List.reverse_reverse]

theorem latin1_utf8 : ∀ s : List Char, (∀ c ∈ s, c.toNat < 128) → latin1 (s.flatMap utf8) = s
  | [], _ => rfl
  | c :: s, h => by
    have hc := h c (List.mem_cons_self ..)
    have hu : utf8 c = [UInt8.ofNat c.toNat] := by unfold utf8; simp only; rw [if_pos hc]
    have ih := latin1_utf8 s (fun d hd => h d (List.mem_cons_of_mem _ hd))
    unfold latin1 at ih ⊢
    rw [List.flatMap_cons, hu, List.map_append, ih]
    have : (UInt8.ofNat c.toNat).toNat = c.toNat := by
      rw [UInt8.toNat_ofNat']; omega
    simp [this, Char.ofNat_toNat]

/-- C23, partial: for notes of ASCII characters. What is stored is the note cut at the space
between the header and the first data offset; it reads back unchanged if this text neither begins
nor ends with a NUL character (these are taken for padding). Missing: other characters, see
`C23_fails_non_ascii`. -/
theorem C23_note_partial {base : Header} {note : List Char} {navShape : List Nat}
    {n m sx sy sdp : Nat} {nav : List UInt8} {frames : List (List UInt8)} {f : List UInt8}
    (hb : base.Fits) (hw : writeFile false base note navShape (n, m) sx sy sdp nav frames = .ok f)
    (hascii : ∀ c ∈ note, c.toNat < 128)
    (hhead : (note.take (base.off1 - 240)).head? ≠ some '\x00')
    (hlast : (note.take (base.off1 - 240)).getLast? ≠ some '\x00')
    {k : Nat} (hk : base.off1 ≤ k) :
    readNote base.off1 (f.take k) = note.take (base.off1 - 240) := by
  obtain ⟨h, text, hh, hf, ht, h1, h2, -, hfe⟩ := writeFile_eq hb hw
  obtain ⟨-, e1, -⟩ := fits_update hb hh
  have hl := head_length hf
  have hclip : clipNote ((h.off1 : Int) - 240) note = note.take (base.off1 - 240) := by
    rw [e1]
    unfold clipNote
    dsimp only
    split
    · have e : ((note.length : Int) + ((base.off1 : Int) - 240 - note.length)).toNat =
          base.off1 - 240 := by omega
      rw [e]
    · rw [List.take_of_length_le (by omega)]
  rw [hclip] at ht
  have h240 : 240 ≤ base.off1 := by omega
  unfold readNote
  rw [if_pos h240]
  have hbytes : ((f.take k).drop 240).take (base.off1 - 240) =
      text ++ zeros (h.off1 - (240 + text.length)) := by
    rw [List.drop_take, List.take_take, hfe, Nat.min_eq_left (by omega)]
    simp only [List.append_assoc]
    rw [List.drop_left' hl, ← List.append_assoc text, List.take_left']
    simp [zeros]; omega
  rw [hbytes]
  have hz : latin1 (zeros (h.off1 - (240 + text.length))) =
      List.replicate (h.off1 - (240 + text.length)) '\x00' := by
    unfold latin1 zeros
    rw [List.map_replicate]
    rfl
  have happ : latin1 (text ++ zeros (h.off1 - (240 + text.length))) =
      latin1 text ++ latin1 (zeros (h.off1 - (240 + text.length))) := by simp [latin1]
  rw [happ, hz, ht, latin1_utf8 _ (fun c hc => hascii c (List.mem_of_mem_take hc))]
  exact stripNul_id _ hhead hlast

/-- The note that `readFile` returns is the one of `readNote` at the first data offset. -/
theorem C23_readFile_note {f : List UInt8} {res : Read} {big : Bool}
    (h : readFile big f = .ok res) : res.note = readNote res.header.off1 f := by
  unfold readFile at h
  split at h
  · cases h
  · dsimp only at h
    split at h
    · cases h; rfl
    · split at h
      · cases h; rfl
      · cases h

/-- A note with room for 3 characters, cut there. -/
example : (writeFile false { tinyHeader with off1 := 243 } ['a', 'b', 'c', 'd'] [1, 1] (1, 1) 0 0 5
    [7] [[42]] >>= readFile false).toOption.map (·.note) = some ['a', 'b', 'c'] := by decide +kernel

/-- Notes are written as UTF-8 and read as Latin-1. -/
theorem C23_fails_non_ascii :
    (writeFile false { tinyHeader with off1 := 243 } ['é'] [1, 1] (1, 1) 0 0 5 [7] [[42]] >>=
      readFile false).toOption.map (·.note) = some ['Ã', '©'] := by decide +kernel

/-- A note whose encoded form is longer than the space although its characters are not makes
writing fail. -/
theorem C23_fails_long_non_ascii :
    writeFile false { tinyHeader with off1 := 241 } ['é'] [1, 1] (1, 1) 0 0 5 [7] [[42]] =
      .error .valueError := by decide +kernel

/-! ### Lazy loading -/

/-- C24, partial: when the file holds exactly the frames the header announces and no dimension is 1,
lazy and in-memory loading return the same header, note, shape and pixels. Missing: dimensions of
length one and incomplete files, see below. -/
theorem C24_lazy_eq_partial {f : List UInt8} {big : Bool} {h : Header}
    (hh : readHeader big f = .ok h) (hy : h.ny ≠ 1) (hx : h.nx ≠ 1) (hn : h.dpSz ≠ 1)
    (hfull : (f.length - h.off2) / (6 + h.dpSz * h.dpSz) = h.ny * h.nx) (hoff : h.off2 ≤ f.length) :
    readFile big f = readLazy big f ∧ ∃ res, readLazy big f = .ok res ∧
      res.shape = [h.ny, h.nx, h.dpSz, h.dpSz] ∧
      axes res.shape = [("y", true, h.ny), ("x", true, h.nx), ("dy", false, h.dpSz),
        ("dx", false, h.dpSz)] := by
  have hlen : (readFrames (6 + h.dpSz * h.dpSz) (f.drop h.off2)).length = h.ny * h.nx := by
    simp [readFrames, hfull]
  have hge : h.off2 + h.ny * h.nx * (6 + h.dpSz * h.dpSz) ≤ f.length := by
    have := Nat.div_mul_le_self (f.length - h.off2) (6 + h.dpSz * h.dpSz)
    rw [hfull] at this
    omega
  unfold readFile readLazy
  rw [hh]
  dsimp only
  rw [if_pos hlen, if_neg (by omega), List.take_of_length_le (by omega)]
  have hshape : [h.ny, h.nx, h.dpSz, h.dpSz].filter (· ≠ 1) = [h.ny, h.nx, h.dpSz, h.dpSz] := by
    simp [hy, hx, hn]
  rw [hshape]
  exact ⟨rfl, _, rfl, rfl, rfl⟩

/-- A 2 × 2 scan of 2 × 2 frames. -/
def scan22 : Py (List UInt8) := writeFile false tinyHeader [] [2, 2] (2, 2) 0 0 5 [7, 7, 7, 7]
  [[1, 2, 3, 4], [5, 6, 7, 8], [9, 10, 11, 12], [13, 14, 15, 16]]

/-- Its header. -/
def header22 : Header := { tinyHeader with nx := 2, ny := 2, dpSz := 2, sdp := 5, off2 := 248 }

/-- It meets the hypotheses. -/
example : (scan22 >>= readHeader false) = .ok header22 ∧
    scan22.toOption.map (fun f => (f.length - 248) / (6 + 2 * 2)) = some (2 * 2) := by
  decide +kernel

/-- For a scan of one line the two ways of loading give different shapes, and in memory the axes are
those of the wrong dimensions: the second frame axis is lost and the first is a navigation axis. -/
theorem C24_fails_single_line :
    let file := writeFile false tinyHeader [] [1, 2] (2, 2) 0 0 5 [7, 7] [[1, 2, 3, 4], [5, 6, 7, 8]]
    (file >>= readLazy false).toOption.map (·.shape) = some [1, 2, 2, 2] ∧
      (file >>= readFile false).toOption.map (·.shape) = some [2, 2, 2] ∧
      (file >>= readFile false).toOption.map (fun r => axes r.shape) =
        some [("y", true, 2), ("x", true, 2), ("dy", false, 2)] := by
  decide +kernel

/-- C24: lazy loading never invents frames: a file shorter than its header announces is refused. -/
theorem C24_lazy_refuses {f : List UInt8} {big : Bool} {h : Header}
    (hh : readHeader big f = .ok h)
    (hs : f.length < h.off2 + h.ny * h.nx * (6 + h.dpSz * h.dpSz)) :
    readLazy big f = .error .valueError := by
  unfold readLazy
  rw [hh]
  dsimp only
  rw [if_pos hs]

/-- An incomplete file is padded with zeros in memory and refused lazily. -/
theorem C24_fails_truncated :
    (scan22 >>= fun f => readLazy false (f.take 280)) = .error .valueError ∧
      (scan22 >>= fun f => readFile false (f.take 280)).toOption.map (·.data) =
        some [1, 2, 3, 4, 5, 6, 7, 8, 9, 10, 11, 12, 0, 0, 0, 0] := by
  decide +kernel

end Verif.Props.Blockfile
