import Verif.Lemmas.SfsTree
/-! C47, C48: files in Bruker containers. -/
namespace Verif.Props.Sfs
open Verif Verif.Sfs

/-! ### C47 -/

/-- C47: every byte range of a stored file is read exactly. (A range of length 0 must not be at the end;
see `C47_fails_at_end`.) -/
theorem C47_piece {F : List UInt8} {c : Nat} {cs : List Nat} {content : List UInt8} (hc : 32 < c)
    (h : Stored F c cs content) (offset length : Nat) (h1 : offset + length ≤ content.length)
    (h2 : offset < content.length) :
    readPiece F c (cs.map fun k => k * c + 0x138) offset length = .ok ((content.drop offset).take length) :=
  readPiece_ok hc h h1 h2

/-- C47: the chunks are those of the file; all but the last are full. -/
theorem C47_chunks {F : List UInt8} {c : Nat} {cs : List Nat} {content : List UInt8} (hc : 32 < c)
    (h : Stored F c cs content) (hne : content ≠ []) (it : Item)
    (hp : it.pointers = cs.map fun k => k * c + 0x138) (hs : it.size = content.length) :
    ∃ chunks, readChunks F c it = .ok chunks ∧ chunks.flatten = content ∧ Full (c - 32) chunks ∧
      chunks.length = cs.length :=
  readChunks_ok hc h hne hp hs

/-- C47: the table of the chunks of a file is found, however many chunks it takes. Missing from the full
claim: sizes of chunks that are no multiple of 4; see `C47_fails_unaligned`. -/
theorem C47_table_partial {F : List UInt8} {c addr : Nat} {content : List UInt8} (hc : 36 ≤ c)
    (h4 : c % 4 = 0) (h : FileAt F c addr content) :
    ∃ cs, Stored F c cs content ∧
      fillTable F c (addr : Int) content.length = .ok (cs.map fun k => k * c + 0x138) :=
  fillTable_ok hc h4 h

/-- The number of blocks of a compressed file. -/
theorem compression_ok {unzip : List UInt8 → Py (List UInt8)} {F : List UInt8} {c : Nat} {cs : List Nat}
    {content : List UInt8} {plains : List (List UInt8)} (hc : 48 ≤ c) (h : Stored F c cs content)
    (hz : ZippedFile unzip content plains) {it : Item} (hp : it.pointers = ptrsOf c cs) :
    ∃ b, compression F it = .ok (b, plains.length) ∧ readAt F (it.pointers[0]?.getD 0) 4 =
      [0x41, 0x41, 0x43, 0x53] ∧ it.pointers[0]? ≠ none := by
  obtain ⟨a, b, d, rest, ha, hb, hd, hlt, rfl, -⟩ := hz
  obtain ⟨p, hp0, hr⟩ := stored_get h (i := 0) (by simp)
  have h16 := hr 0 16 (by omega) (by simp only [List.length_append, leBytes_length, ha, hb, hd, List.length_cons, List.length_nil]; omega)
  have h4 := hr 0 4 (by omega) (by simp)
  simp only [Nat.zero_mul, Nat.add_zero, List.drop_zero] at h16 h4
  have e16 : (([0x41, 0x41, 0x43, 0x53] ++ a ++ b ++ leBytes 4 plains.length ++ d ++ rest).take 16 :
      List UInt8) = [0x41, 0x41, 0x43, 0x53] ++ a ++ b ++ leBytes 4 plains.length := by
    rw [List.append_assoc _ d, List.take_left' (by simp [ha, hb])]
  have e4 : (([0x41, 0x41, 0x43, 0x53] ++ a ++ b ++ leBytes 4 plains.length ++ d ++ rest).take 4 :
      List UInt8) = [0x41, 0x41, 0x43, 0x53] := by
    simp only [List.append_assoc]
    rw [List.take_left' (by simp)]
  refine ⟨leVal a, ?_, ?_, ?_⟩
  · unfold compression
    rw [hp, hp0]
    dsimp only
    rw [h16, e16, if_neg (by simp [ha, hb])]
    have t4 : ([0x41, 0x41, 0x43, 0x53] ++ a ++ b ++ leBytes 4 plains.length).take 4 =
        ([0x41, 0x41, 0x43, 0x53] : List UInt8) := by
      simp only [List.append_assoc]
      rw [List.take_left' (by simp)]
    have t8 : (([0x41, 0x41, 0x43, 0x53] ++ a ++ b ++ leBytes 4 plains.length : List UInt8).drop 4).take 4 = a := by
      simp only [List.append_assoc]
      rw [List.drop_left' (by simp), List.take_left' ha]
    have t16 : (([0x41, 0x41, 0x43, 0x53] ++ a ++ b ++ leBytes 4 plains.length : List UInt8).drop 12).take 4 =
        leBytes 4 plains.length := by
      rw [List.drop_left' (by simp [ha, hb]), List.take_of_length_le (by simp)]
    rw [t4, if_pos (by decide), t8, t16, leVal_leBytes (by simpa using hlt)]
  · rw [hp, hp0, Option.getD_some, h4, e4]
  · rw [hp, hp0]; simp

/-- C47: a compressed file is read block by block, and every block is decompressed. -/
theorem C47_compressed {unzip : List UInt8 → Py (List UInt8)} {F : List UInt8} {c : Nat} {cs : List Nat}
    {content : List UInt8} {plains : List (List UInt8)} (hc : 48 ≤ c) (h : Stored F c cs content)
    (hz : ZippedFile unzip content plains) (k : Container) (hk : k.chunk = c) (hzl : k.zlib = true) (it : Item)
    (hp : it.pointers = cs.map fun k => k * c + 0x138) :
    wholeFile unzip F k it = .ok plains.flatten := by
  obtain ⟨b, hcomp, -⟩ := compression_ok hc h hz hp
  obtain ⟨a, b', d, rest, ha, hb, hd, hlt, hcont, hzz⟩ := hz
  unfold wholeFile
  rw [if_pos hzl, hcomp]
  dsimp only
  have hdrop : content.drop 0x80 = rest := by
    rw [hcont, List.drop_left' (by simp [ha, hb, hd])]
  have := readBlocks_ok (by omega) h hzz hdrop
  unfold ptrsOf at this
  rw [hk, hp, this]

/-- A container with chunks of 36 bytes (4 of them for data), a file of 6 bytes in chunks 2 and 1, and
its table in chunks 3 and 4. -/
def sample : List UInt8 :=
  List.replicate 0x118 0 ++ List.replicate 36 7 ++
  (List.replicate 32 0 ++ [5, 6, 9, 9]) ++ (List.replicate 32 0 ++ [1, 2, 3, 4]) ++
  (leBytes 4 4 ++ List.replicate 28 0 ++ leBytes 4 2) ++ (List.replicate 32 0 ++ leBytes 4 1)

theorem has_of {F bs : List UInt8} {pos : Nat} (h : (F.drop pos).take bs.length = bs) : Has F pos bs :=
  ⟨(F.drop pos).drop bs.length, by conv_lhs => rw [← List.take_append_drop bs.length (F.drop pos), h]⟩

theorem sample_stored : Stored sample 36 [2, 1] [1, 2, 3, 4, 5, 6] := by
  constructor
  · intro i hi
    have : i = 0 ∨ i = 1 := by simp at hi; omega
    rcases this with rfl | rfl
    · exact ⟨2, rfl, has_of (by decide +kernel)⟩
    · exact ⟨1, rfl, has_of (by decide +kernel)⟩
  · intro i hi
    simp at hi
    rw [List.getElem?_eq_none_iff]
    simp
    omega

theorem sample_file : FileAt sample 36 3 [1, 2, 3, 4, 5, 6] := by
  refine ⟨[2, 1], [leBytes 4 2, leBytes 4 1], sample_stored, by decide, ?_, ⟨by decide, ?_⟩, by decide⟩
  · refine .more 3 4 _ _ (has_of (by decide +kernel)) (by decide) (has_of (by decide +kernel)) ?_
    exact .last 4 _ (has_of (by decide +kernel))
  · intro b hb
    obtain rfl : leBytes 4 1 = b := Option.some.inj hb
    decide

/-- The hypotheses can be met, and the range crosses chunks. -/
example : readPiece sample 36 ([2, 1].map fun k => k * 36 + 0x138) 1 4 = .ok [2, 3, 4, 5] :=
  C47_piece (by decide) sample_stored 1 4 (by decide) (by decide)

example : fillTable sample 36 3 6 = .ok ([2, 1].map fun k => k * 36 + 0x138) := by decide +kernel

/-- Violation: an empty file cannot be read. -/
theorem C47_fails_empty (F : List UInt8) (c : Nat) (name : Text) (parent : Int) :
    readChunks F c ⟨0, parent, false, name, []⟩ = .error .indexError := by
  unfold readChunks ceilDiv usable
  dsimp only
  have : (0 + (c - 32) - 1) / (c - 32) = 0 := by
    rcases Nat.eq_zero_or_pos (c - 32) with h | h
    · rw [h, Nat.div_zero]
    · exact Nat.div_eq_of_lt (by omega)
  rw [this, if_neg (by simp)]
  rfl

/-- Violation: nothing cannot be read at the end of a file whose chunks are full. -/
theorem C47_fails_at_end {F : List UInt8} {c : Nat} {cs : List Nat} {content : List UInt8}
    (h : Stored F c cs content) (hm : content.length % (c - 32) = 0) :
    readPiece F c (cs.map fun k => k * c + 0x138) content.length 0 = .error .indexError := by
  unfold readPiece
  dsimp only
  have hlen : cs.length = content.length / (c - 32) := by
    have h1 := stored_length h (content.length / (c - 32))
    have h2 := stored_length h cs.length
    have hd := Nat.div_mul_cancel (Nat.dvd_of_mod_eq_zero hm)
    rw [hd] at h1
    have : ¬ content.length / (c - 32) < cs.length := by rw [h1]; omega
    have hge : content.length ≤ cs.length * (c - 32) := by
      have : ¬ cs.length * (c - 32) < content.length := by rw [← h2]; omega
      omega
    have : content.length / (c - 32) ≤ cs.length := Nat.div_le_of_le_mul (by rw [Nat.mul_comm]; exact hge)
    omega
  unfold usable
  rw [List.getElem?_eq_none_iff.2 (by rw [List.length_map]; omega)]

/-- A container with chunks of 37 bytes: a file of 6 bytes, its table in two chunks with one number
each. -/
def odd : List UInt8 :=
  List.replicate 0x118 0 ++ List.replicate 37 7 ++
  (List.replicate 32 0 ++ [6, 9, 9, 9, 9]) ++ (List.replicate 32 0 ++ [1, 2, 3, 4, 5]) ++
  (leBytes 4 4 ++ List.replicate 28 0 ++ leBytes 4 2 ++ [0]) ++ (List.replicate 32 0 ++ leBytes 4 1 ++ [0])

/-- Violation: if the size of the chunks is no multiple of 4 and the table takes more than one chunk, its
numbers are read from wrong places. -/
theorem C47_fails_unaligned : FileAt odd 37 3 [1, 2, 3, 4, 5, 6] ∧
    fillTable odd 37 3 6 = .ok [2 * 37 + 0x138, 256 * 37 + 0x138] := by
  refine ⟨⟨[2, 1], [leBytes 4 2, leBytes 4 1], ⟨?_, ?_⟩, by decide, ?_, ⟨by decide, ?_⟩, by decide⟩,
    by decide +kernel⟩
  · intro i hi
    have : i = 0 ∨ i = 1 := by simp at hi; omega
    rcases this with rfl | rfl
    · exact ⟨2, rfl, has_of (by decide +kernel)⟩
    · exact ⟨1, rfl, has_of (by decide +kernel)⟩
  · intro i hi
    simp at hi
    rw [List.getElem?_eq_none_iff]
    simp
    omega
  · refine .more 3 4 _ _ (has_of (by decide +kernel)) (by decide) (has_of (by decide +kernel)) ?_
    exact .last 4 _ (has_of (by decide +kernel))
  · intro b hb
    obtain rfl : leBytes 4 1 = b := Option.some.inj hb
    decide

/-! ### C48 -/

/-- C48: the file system of every table that describes one is built, and a file is found under its path
exactly if all directories above it are listed before it. -/
theorem C48_reachable {es : List (Bool × Text × Option Nat)} (fs : FileSystem es) (hne : es ≠ []) :
    ∃ N, ∀ fuel, N ≤ fuel → ∃ vfs,
      tree fuel (es.map fun e => (e.1, e.2.1, match e.2.2 with | none => -1 | some p => (p : Int))) =
        some (.ok vfs) ∧
      ∀ (ns : List Text) (i : Nat), ns ≠ [] → (∀ n ∈ ns, '/' ∉ n) →
        (getFile vfs (joinSlash ns) = .ok (.file i) ↔
          (∃ name p, es[i]? = some (false, name, p)) ∧ PathOf es i ns ∧ ∀ a, Above es a i → a < i) := by
  obtain ⟨N, hN⟩ := tree_ok fs hne
  refine ⟨N, ?_⟩
  intro fuel hf
  obtain ⟨d, hd, hfind⟩ := hN fuel hf
  refine ⟨d, ?_, ?_⟩
  · rw [← hd]
    congr 1
  · intro ns i hn hs
    unfold getFile
    rw [splitChar_joinSlash hn hs, walk_find, hfind]

/-- The first file tells whether the files are compressed. -/
theorem isZlib_ok {F : List UInt8} {c : Nat} {e : Entry} {p : List UInt8 → Prop}
    (hp : ∀ it, ItemOf F c e it → ∃ q, it.pointers[0]? = some q ∧ p (readAt F q 4)) :
    ∀ {ds rest : List Entry} {its : List Item}, (∀ d ∈ ds, d.isDir = true) → e.isDir = false →
      List.Forall₂ (ItemOf F c) (ds ++ e :: rest) its →
      ∃ b, p b ∧ isZlib F its = .ok (decide (b = [0x41, 0x41, 0x43, 0x53]))
  | [], rest, _, _, he, .cons (b := it) h _ => by
    obtain ⟨q, hq, hb⟩ := hp it h
    refine ⟨_, hb, ?_⟩
    rw [isZlib, if_neg (by rw [h.2.1, he]; simp), hq]
  | d :: ds, rest, _, hds, he, .cons (b := it) h ht => by
    obtain ⟨b, h1, h2⟩ := isZlib_ok hp (fun x hx => hds x (List.mem_cons_of_mem _ hx)) he ht
    refine ⟨b, h1, ?_⟩
    rw [isZlib, if_pos (by rw [h.2.1]; exact hds d (List.mem_cons_self ..)), h2]

theorem checkAll_ok {F : List UInt8} {c : Nat} : ∀ {es : List Entry} {its : List Item},
    (∀ e ∈ es, ∀ it, e.isDir = false → ItemOf F c e it → ∃ x, compression F it = .ok x) →
    List.Forall₂ (ItemOf F c) es its → checkAll F its = .ok ()
  | _, _, _, .nil => rfl
  | e :: _, it :: _, h, .cons hi ht => by
    have ih := checkAll_ok (fun e he => h e (List.mem_cons_of_mem _ he)) ht
    rw [checkAll, ih]
    by_cases hd : it.isDir = true
    · rw [if_pos hd]
    · rw [if_neg hd]
      obtain ⟨x, hx⟩ := h e (List.mem_cons_self ..) it (by rw [← hi.2.1]; simpa using hd) hi
      rw [hx]

theorem table_items {F : List UInt8} {c : Nat} : ∀ {es : List Entry} {its : List Item},
    List.Forall₂ (ItemOf F c) es its → its.map (fun it => (it.isDir, it.name, it.parent)) =
      (table es).map fun e => (e.1, e.2.1, parentInt e.2.2)
  | _, _, .nil => rfl
  | e :: _, it :: _, .cons hi ht => by
    have ih := table_items ht
    unfold table at ih ⊢
    rw [List.map_cons, List.map_cons, List.map_cons, ih, hi.1, hi.2.1, hi.2.2.1]

theorem forall₂_get {F : List UInt8} {c : Nat} : ∀ {es : List Entry} {its : List Item},
    List.Forall₂ (ItemOf F c) es its → ∀ {i : Nat} {e : Entry}, es[i]? = some e →
      ∃ it, its[i]? = some it ∧ ItemOf F c e it
  | _, _, .nil, i, e, h => by simp at h
  | _ :: _, it :: _, .cons hi ht, 0, e, h => by
    simp at h
    subst h
    exact ⟨it, rfl, hi⟩
  | _ :: _, _ :: _, .cons hi ht, i + 1, e, h => by
    rw [List.getElem?_cons_succ] at h
    obtain ⟨it, h1, h2⟩ := forall₂_get ht h
    exact ⟨it, by rw [List.getElem?_cons_succ]; exact h1, h2⟩

/-- C48 for containers. Missing from the full claim: directories listed after what is in them, tables
whose chunks cannot be counted from their bytes, an empty first file, sizes of chunks that are no multiple
of 4; see the theorems below. -/
theorem C48_container_partial {enc : Text → List UInt8} {dec : List UInt8 → Option Text}
    {unzip : List UInt8 → Py (List UInt8)} {F : List UInt8} {c : Nat} {es : List Entry}
    {blocks : List (List UInt8)} (h : Holds enc F c es blocks) (h4 : c % 4 = 0)
    (hfit : (blocks.length - 1) * (c - 32) < es.length * 512)
    (hnames : ∀ e ∈ es, dec (enc e.name) = some e.name ∧ (0 : UInt8) ∉ enc e.name)
    (fs : FileSystem (table es)) (hz : Plain es ∨ Compressed unzip es) :
    ∃ N, ∀ fuel, N ≤ fuel → ∃ k, openSfs dec fuel F = some (.ok k) ∧
      ∀ (i : Nat) (e : Entry) (ns : List Text), es[i]? = some e → e.isDir = false →
        PathOf (table es) i ns → (∀ n ∈ ns, '/' ∉ n) → (∀ a, Above (table es) a i → a < i) →
        getFile k.vfs (joinSlash ns) = .ok (.file i) ∧ ∃ it, k.items[i]? = some it ∧
          (∀ offset length, offset + length ≤ e.content.length → offset < e.content.length →
            readPiece F k.chunk it.pointers offset length = .ok ((e.content.drop offset).take length)) ∧
          (Plain es → e.content ≠ [] → wholeFile unzip F k it = .ok e.content) ∧
          (Compressed unzip es → ∀ plains, ZippedFile unzip e.content plains →
            wholeFile unzip F k it = .ok plains.flatten) := by
  obtain ⟨addr, haddr, hat, hcount, hlinked⟩ := h.table
  have hc := h.chunk.1
  obtain ⟨hlen, its, hits, hall⟩ := itemsOf_ok (dec := dec) (by omega) h4 h.records hnames
  have hfirst : ∃ e, First es e := by
    rcases hz with ⟨e, he, -⟩ | ⟨he, -⟩
    · exact ⟨e, he⟩
    · exact he
  have hne : es ≠ [] := by
    obtain ⟨e, ds, rest, rfl, -⟩ := hfirst
    simp
  have hpos := List.length_pos_iff.2 hne
  have hraw := rawTree_ok hc hlinked h.full hlen hpos hfit
  -- compressed or not
  have hzl : ∃ z, isZlib F its = .ok z ∧ (Plain es → z = false) ∧ (Compressed unzip es → z = true) ∧
      (if z then checkAll F its else .ok () : Py Unit) = .ok () := by
    have plain : Plain es → isZlib F its = .ok false := by
      rintro ⟨e, ⟨ds, rest, rfl, hds, he⟩, hl, hsig⟩
      obtain ⟨b, hb, hi⟩ := isZlib_ok (c := c) (p := fun b => b ≠ [0x41, 0x41, 0x43, 0x53]) (by
        intro it hit
        obtain ⟨cs, hs, hp⟩ := hit.2.2.2.2 he
        obtain ⟨p, hp0, hr⟩ := stored_get hs (i := 0) (by omega)
        have := hr 0 4 (by omega) (by omega)
        simp only [Nat.zero_mul, Nat.add_zero, List.drop_zero] at this
        exact ⟨p, by rw [hp, hp0], by rw [this]; exact hsig⟩) hds he hall
      rw [hi, decide_eq_false hb]
    have comp : Compressed unzip es → isZlib F its = .ok true ∧ checkAll F its = .ok () := by
      rintro ⟨⟨e, ds, rest, hes, hds, he⟩, hzip⟩
      constructor
      · obtain ⟨b, hb, hi⟩ := isZlib_ok (c := c) (e := e) (p := fun b => b = [0x41, 0x41, 0x43, 0x53]) (by
          intro it hit
          obtain ⟨cs, hs, hp⟩ := hit.2.2.2.2 he
          obtain ⟨plains, hpl⟩ := hzip e (by rw [hes]; simp) he
          obtain ⟨_, _, h2, h3⟩ := compression_ok (by omega) hs hpl hp
          cases hq : it.pointers[0]? with
          | none => exact absurd hq h3
          | some q =>
            rw [hq] at h2
            exact ⟨q, rfl, h2⟩) hds he (hes ▸ hall)
        rw [hi, decide_eq_true hb]
      · refine checkAll_ok ?_ hall
        intro e he it hd hit
        obtain ⟨cs, hs, hp⟩ := hit.2.2.2.2 hd
        obtain ⟨plains, hpl⟩ := hzip e he hd
        obtain ⟨b, h1, -⟩ := compression_ok (by omega) hs hpl hp
        exact ⟨_, h1⟩
    rcases hz with hpl | hcm
    · refine ⟨false, plain hpl, fun _ => rfl, ?_, rfl⟩
      intro hcm
      have := (comp hcm).1
      rw [plain hpl] at this
      cases this
    · obtain ⟨h1, h2⟩ := comp hcm
      refine ⟨true, h1, ?_, fun _ => rfl, h2⟩
      intro hpl
      rw [plain hpl] at h1
      cases h1
  obtain ⟨z, hz1, hz2, hz3, hz4⟩ := hzl
  obtain ⟨N, hN⟩ := tree_ok fs (by unfold table; simpa using hne)
  refine ⟨N, ?_⟩
  intro fuel hfuel
  obtain ⟨vfs, hvfs, hfind⟩ := hN fuel hfuel
  have r4 : ∀ pos n, n < 2 ^ 32 → Has F pos (leBytes 4 n) → leVal (readAt F pos 4) = n := by
    intro pos n hn hh
    have := readAt_all hh
    rw [leBytes_length] at this
    rw [this, leVal_leBytes (by simpa using hn)]
  have hmagic := readAt_all h.magic
  refine ⟨⟨c, its, z, vfs⟩, ?_, ?_⟩
  · unfold openSfs
    rw [if_neg (by simpa using hmagic), if_neg (by have := h.size; omega)]
    dsimp only
    rw [r4 _ _ h.chunk.2 h.chunkAt, r4 _ _ haddr hat, r4 _ _ h.count hcount, hraw]
    dsimp only
    rw [hits]
    dsimp only
    rw [hz1]
    dsimp only
    rw [hz4]
    dsimp only
    rw [table_items hall, hvfs]
  · intro i e ns hie hed hpath hslash habove
    refine ⟨?_, ?_⟩
    · unfold getFile
      rw [splitChar_joinSlash hpath.ne_nil hslash, walk_find, hfind]
      refine ⟨⟨e.name, e.parent, ?_⟩, hpath, habove⟩
      unfold table
      rw [List.getElem?_map, hie, ← hed]
      rfl
    · obtain ⟨it, hit, hio⟩ := forall₂_get hall hie
      obtain ⟨cs, hs, hp⟩ := hio.2.2.2.2 hed
      refine ⟨it, hit, ?_, ?_, ?_⟩
      · intro offset length h1 h2
        dsimp only
        rw [hp]
        exact readPiece_ok (by omega) hs h1 h2
      · intro hpl hcne
        obtain ⟨chunks, h1, h2, -⟩ := readChunks_ok (by omega) hs hcne hp hio.2.2.2.1
        unfold wholeFile
        rw [if_neg (by rw [hz2 hpl]; simp)]
        dsimp only
        rw [h1]
        dsimp only
        rw [h2]
      · intro hcm plains hpl
        exact C47_compressed (by omega) hs hpl _ rfl (hz3 hcm) it hp

/-! The hypotheses can be met: a directory with a file in it, chunks of 1024 bytes, the table in two
chunks. -/

def ascii (t : Text) : List UInt8 := t.map fun ch => UInt8.ofNat ch.toNat

def unascii (bs : List UInt8) : Option Text := some (bs.map fun b => Char.ofNat b.toNat)

def tDir : Text := ['E', 'D', 'S']

def tFile : Text := ['m', 'a', 'p']

def recordOf (addr : Nat) (e : Entry) : List UInt8 :=
  leBytes 4 addr ++ leBytes 8 e.content.length ++ List.replicate 28 7 ++ parentBytes e.parent ++
    List.replicate 176 9 ++ [if e.isDir then 1 else 0] ++ List.replicate 3 0 ++ ascii e.name ++
    List.replicate (256 - (ascii e.name).length) 0 ++ List.replicate 32 0

def chunkOf (next : Nat) (bs : List UInt8) : List UInt8 :=
  leBytes 4 next ++ List.replicate 28 0 ++ bs ++ List.replicate (992 - bs.length) 0

def headerOf (c addr n : Nat) : List UInt8 :=
  [0x41, 0x41, 0x4d, 0x56, 0x48, 0x46, 0x53, 0x53] ++ List.replicate 288 0 ++ leBytes 4 c ++
    List.replicate 20 0 ++ leBytes 4 addr ++ leBytes 4 n ++ List.replicate (0x118 + c - 0x148) 0

def dEntry : Entry := ⟨true, tDir, none, []⟩

def fEntry : Entry := ⟨false, tFile, some 0, [1, 2, 3, 4, 5]⟩

def two : List UInt8 :=
  headerOf 1024 1 2 ++ chunkOf 2 (recordOf 0 dEntry) ++ chunkOf 0 (recordOf 3 fEntry) ++
    chunkOf 0 (leBytes 4 4) ++ chunkOf 0 [1, 2, 3, 4, 5]

theorem two_file : FileAt two 1024 3 [1, 2, 3, 4, 5] := by
  refine ⟨[4], [leBytes 4 4], ⟨?_, ?_⟩, by decide, .last 3 _ (has_of (by decide +kernel)), ⟨by decide, ?_⟩,
    by decide⟩
  · intro i hi
    obtain rfl : i = 0 := by simp at hi; omega
    exact ⟨4, rfl, has_of (by decide +kernel)⟩
  · intro i hi
    simp at hi
    rw [List.getElem?_eq_none_iff]
    simp
    omega
  · intro b hb
    obtain rfl : leBytes 4 4 = b := Option.some.inj hb
    decide

theorem record_dir (F : List UInt8) : Record ascii F 1024 (recordOf 0 dEntry) dEntry :=
  ⟨0, List.replicate 28 7, List.replicate 176 9, List.replicate 3 0, List.replicate 32 0, 1,
    by decide, by decide +kernel, by decide, by decide, by decide, by decide, by decide,
    (by intro p h; cases h), by decide, rfl, by intro h; cases h⟩

theorem record_file : Record ascii two 1024 (recordOf 3 fEntry) fEntry :=
  ⟨3, List.replicate 28 7, List.replicate 176 9, List.replicate 3 0, List.replicate 32 0, 0,
    by decide, by decide +kernel, by decide, by decide, by decide, by decide, by decide,
    (by intro p h; cases h; decide), by decide, rfl, fun _ => two_file⟩

theorem two_holds : Holds ascii two 1024 [dEntry, fEntry] [recordOf 0 dEntry, recordOf 3 fEntry] where
  chunk := by decide
  size := by decide +kernel
  count := by decide
  magic := has_of (by decide +kernel)
  chunkAt := has_of (by decide +kernel)
  table := ⟨1, by decide, has_of (by decide +kernel), has_of (by decide +kernel),
    .more 1 2 _ _ (has_of (by decide +kernel)) (by decide) (has_of (by decide +kernel))
      (.last 2 _ (has_of (by decide +kernel)))⟩
  full := ⟨by decide +kernel, by
    intro b hb
    obtain rfl : recordOf 3 fEntry = b := Option.some.inj hb
    decide +kernel⟩
  records := .cons _ _ _ _ (record_dir _) (.cons _ [] _ _ record_file .nil)

theorem two_fs : FileSystem (table [dEntry, fEntry]) where
  path := by
    intro i hi
    have : i = 0 ∨ i = 1 := by simp [table] at hi; omega
    rcases this with rfl | rfl
    · exact ⟨_, .top 0 true tDir rfl⟩
    · exact ⟨_, .sub 1 0 false tFile _ rfl (.top 0 true tDir rfl)⟩
  dirs := by
    intro i p d name h
    match i, h with
    | 1, h => cases h; exact ⟨tDir, none, rfl⟩
  names := by
    intro i j d d' name p h h'
    match i, j, h, h' with
    | 0, 0, _, _ => rfl
    | 1, 1, _, _ => rfl
    | 0, 1, h, h' => cases h; cases h'
    | 1, 0, h, h' => cases h; cases h'

example : ∃ N, ∀ fuel, N ≤ fuel → ∃ k, openSfs unascii fuel two = some (.ok k) ∧
    getFile k.vfs ['E', 'D', 'S', '/', 'm', 'a', 'p'] = .ok (.file 1) ∧
    ∃ it, k.items[1]? = some it ∧ wholeFile (fun b => .ok b) two k it = .ok [1, 2, 3, 4, 5] := by
  have hpl : Plain [dEntry, fEntry] :=
    ⟨fEntry, ⟨[dEntry], [], rfl, by intro d hd; simp at hd; subst hd; rfl, rfl⟩, by decide, by decide⟩
  obtain ⟨N, hN⟩ := C48_container_partial (dec := unascii) (unzip := fun b => .ok b) two_holds (by decide)
    (by decide) (by
      intro e he
      simp at he
      rcases he with rfl | rfl <;> decide) two_fs (.inl hpl)
  refine ⟨N, fun fuel hf => ?_⟩
  obtain ⟨k, h1, h2⟩ := hN fuel hf
  obtain ⟨h3, it, h4, -, h5, -⟩ := h2 1 fEntry [tDir, tFile] rfl rfl
    (.sub 1 0 false tFile _ rfl (.top 0 true tDir rfl)) (by decide) (by
      intro a ha
      cases ha with
      | parent _ p d name h => cases h; decide
      | up _ p a d name h h' =>
        cases h
        cases h' with
        | parent _ p d name h => cases h
        | up _ p a d name h h' => cases h)
  exact ⟨k, h1, h3, it, h4, h5 hpl (by decide)⟩

/-! ### Violations of C48 -/

/-- Violation: a file is not found if a directory above it is listed after it. -/
theorem C48_fails_order {es : List (Bool × Text × Option Nat)} (fs : FileSystem es) (hne : es ≠ [])
    {a i : Nat} (h : Above es a i) (hi : i ≤ a) :
    ∃ N, ∀ fuel, N ≤ fuel → ∃ vfs,
      tree fuel (es.map fun e => (e.1, e.2.1, match e.2.2 with | none => -1 | some p => (p : Int))) =
        some (.ok vfs) ∧
      ∀ ns, ns ≠ [] → (∀ n ∈ ns, '/' ∉ n) → getFile vfs (joinSlash ns) ≠ .ok (.file i) := by
  obtain ⟨N, hN⟩ := C48_reachable fs hne
  refine ⟨N, fun fuel hf => ?_⟩
  obtain ⟨vfs, h1, h2⟩ := hN fuel hf
  refine ⟨vfs, h1, ?_⟩
  intro ns hn hs e
  have := ((h2 ns i hn hs).1 e).2.2 a h
  omega

/-- For example a file that is listed before its directory. -/
theorem C48_fails_order_ex : ∃ vfs, tree 2 [(false, tFile, 1), (true, tDir, -1)] = some (.ok vfs) ∧
    getFile vfs ['E', 'D', 'S', '/', 'm', 'a', 'p'] = .error .keyError :=
  ⟨[(tDir, .dir [])], rfl, rfl⟩

theorem linked_prefix {F : List UInt8} {c w : Nat} {blocks : List (List UInt8)} {a : Nat}
    (h : Linked F c a blocks) : (∀ b ∈ blocks.dropLast, b.length = w) → ∀ k, k < blocks.length →
      linked F c w k a = .ok (blocks.take k).flatten := by
  induction h with
  | last a bs hb =>
    intro _ k hk
    obtain rfl : k = 0 := by simp at hk; omega
    rfl
  | more a b bs rest hb hlt hn hl ih =>
    intro hw k hk
    cases k with
    | zero => rfl
    | succ k =>
      have hne : rest ≠ [] := by rintro rfl; cases hl
      rw [List.dropLast_cons_of_ne_nil hne] at hw
      have hr := readAt_all hn
      rw [leBytes_length] at hr
      have hbs := readAt_all hb
      rw [hw bs (List.mem_cons_self ..)] at hbs
      rw [linked]
      rw [hr, if_neg (by simp), leVal_leBytes (by simpa using hlt),
        ih (fun x hx => hw x (List.mem_cons_of_mem _ hx)) k (by simpa using hk)]
      rw [hbs, List.take_succ_cons, List.flatten_cons]

theorem flatten_same {w : Nat} : ∀ {bs : List (List UInt8)}, (∀ b ∈ bs, b.length = w) →
    bs.flatten.length = bs.length * w
  | [], _ => by simp
  | b :: bs, h => by
    rw [List.flatten_cons, List.length_append, h b (List.mem_cons_self ..),
      flatten_same fun x hx => h x (List.mem_cons_of_mem _ hx), List.length_cons, Nat.add_mul]
    omega

theorem itemsOf_short {enc : Text → List UInt8} {dec : List UInt8 → Option Text} {F : List UInt8} {c : Nat}
    (hc : 36 ≤ c) (h4 : c % 4 = 0) {rs : List UInt8} {es : List Entry} (h : Records enc F c rs es) :
    (∀ e ∈ es, dec (enc e.name) = some e.name ∧ (0 : UInt8) ∉ enc e.name) →
    ∀ m, m < rs.length → itemsOf dec F c es.length (rs.take m) = .error .structError := by
  induction h with
  | nil => intro _ m hm; simp at hm
  | cons r rs e es hr _ ih =>
    intro hn m hm
    obtain ⟨hl, it, hit, -⟩ := item_ok hc h4 hr (hn e (List.mem_cons_self ..)).1
      (hn e (List.mem_cons_self ..)).2
    rw [List.length_cons, itemsOf]
    by_cases hm5 : m < 512
    · have : item dec F c (((r ++ rs).take m).take 512) = .error .structError := by
        unfold item
        rw [if_pos]
        rw [List.length_take, List.length_take, List.length_append]
        omega
      rw [this]
    · have e1 : ((r ++ rs).take m).take 512 = r := by
        rw [List.take_take, Nat.min_eq_left (by omega), List.take_left' hl]
      have e2 : ((r ++ rs).take m).drop 512 = rs.take (m - 512) := by
        rw [List.drop_take, List.drop_left' hl]
      rw [e1, e2, hit]
      dsimp only
      rw [ih (fun x hx => hn x (List.mem_cons_of_mem _ hx)) (m - 512) (by
        rw [List.length_append] at hm; omega)]

/-- Violation: the chunks of the table are counted from its bytes, although only whole records are stored
in a chunk. If there are more chunks than that, the container cannot be opened. -/
theorem C48_fails_many {enc : Text → List UInt8} {dec : List UInt8 → Option Text} {F : List UInt8} {c : Nat}
    {es : List Entry} {blocks : List (List UInt8)} (h : Holds enc F c es blocks) (h4 : c % 4 = 0)
    (hfit : es.length * 512 ≤ (blocks.length - 1) * (c - 32)) (hne : es ≠ [])
    (hnames : ∀ e ∈ es, dec (enc e.name) = some e.name ∧ (0 : UInt8) ∉ enc e.name) (fuel : Nat) :
    openSfs dec fuel F = some (.error .structError) := by
  obtain ⟨addr, haddr, hat, hcount, hlinked⟩ := h.table
  have hc := h.chunk.1
  obtain ⟨hlen, -⟩ := itemsOf_ok (dec := dec) (by omega) h4 h.records hnames
  have hpos := List.length_pos_iff.2 hne
  have hwp : 0 < (c - 32) / 512 * 512 := by omega
  have hbn : blocks ≠ [] := by rintro rfl; cases hlinked
  have hbe : blocks ≠ [[]] := by
    rintro rfl
    have : 0 = es.length * 512 := hlen
    omega
  have hfl := full_length hwp h.full hbn hbe
  rw [hlen] at hfl
  generalize hk : ceilDiv (es.length * 512) (c - 32) = k
  have hkb : k ≤ blocks.length - 1 := by
    rw [← hk]
    unfold ceilDiv
    have : (es.length * 512 + (c - 32) - 1) / (c - 32) < (blocks.length - 1) + 1 := by
      rw [Nat.div_lt_iff_lt_mul (by omega), Nat.add_mul]
      omega
    omega
  have hbl := List.length_pos_iff.2 hbn
  have hkk : k < blocks.length := by omega
  have hk1 : k ≠ 1 := by
    rintro rfl
    have h2 : es.length * 512 ≤ c - 32 := by
      have h3 : ceilDiv (es.length * 512) (c - 32) < 2 := by omega
      unfold ceilDiv at h3
      rw [Nat.div_lt_iff_lt_mul (by omega)] at h3
      omega
    have := (hfl 1).1 hkk
    omega
  have hraw : rawTree F c addr es.length = .ok (blocks.flatten.take (k * ((c - 32) / 512 * 512))) := by
    unfold rawTree
    dsimp only
    rw [hk, if_neg hk1, linked_prefix hlinked h.full.1 k hkk]
    dsimp only
    congr 1
    have hlt := (hfl k).1 hkk
    have hfk : (blocks.take k).flatten = blocks.flatten.take (k * ((c - 32) / 512 * 512)) := by
      have hl : (blocks.take k).flatten.length = k * ((c - 32) / 512 * 512) := by
        have hall : ∀ b ∈ blocks.take k, b.length = (c - 32) / 512 * 512 := by
          intro b hb
          refine h.full.1 b ?_
          rw [List.dropLast_eq_take]
          exact (List.take_subset_take_left _ (by omega)) hb
        rw [flatten_same hall, List.length_take, Nat.min_eq_left (by omega)]
      conv_rhs => rw [← List.take_append_drop k blocks, List.flatten_append]
      rw [List.take_left' hl]
    rw [hfk, List.take_take, Nat.min_eq_right (by omega)]
  have hits := itemsOf_short (dec := dec) (by omega) h4 h.records hnames (k * ((c - 32) / 512 * 512)) (by
    rw [hlen]; exact (hfl k).1 hkk)
  have r4 : ∀ pos n, n < 2 ^ 32 → Has F pos (leBytes 4 n) → leVal (readAt F pos 4) = n := by
    intro pos n hn hh
    have := readAt_all hh
    rw [leBytes_length] at this
    rw [this, leVal_leBytes (by simpa using hn)]
  have hmagic := readAt_all h.magic
  unfold openSfs
  rw [if_neg (by simpa using hmagic), if_neg (by have := h.size; omega)]
  dsimp only
  rw [r4 _ _ h.chunk.2 h.chunkAt, r4 _ _ haddr hat, r4 _ _ h.count hcount, hraw]
  dsimp only
  rw [hits]

/-- For example three records with chunks of 1024 bytes (or fifteen with chunks of 4096 bytes). -/
def three : List UInt8 :=
  headerOf 1024 1 3 ++ chunkOf 2 (recordOf 0 dEntry) ++ chunkOf 3 (recordOf 0 dEntry) ++
    chunkOf 0 (recordOf 0 dEntry)

theorem three_holds : Holds ascii three 1024 [dEntry, dEntry, dEntry]
    [recordOf 0 dEntry, recordOf 0 dEntry, recordOf 0 dEntry] where
  chunk := by decide
  size := by decide +kernel
  count := by decide
  magic := has_of (by decide +kernel)
  chunkAt := has_of (by decide +kernel)
  table := ⟨1, by decide, has_of (by decide +kernel), has_of (by decide +kernel),
    .more 1 2 _ _ (has_of (by decide +kernel)) (by decide) (has_of (by decide +kernel))
      (.more 2 3 _ _ (has_of (by decide +kernel)) (by decide) (has_of (by decide +kernel))
        (.last 3 _ (has_of (by decide +kernel))))⟩
  full := ⟨by decide +kernel, by
    intro b hb
    obtain rfl : recordOf 0 dEntry = b := Option.some.inj hb
    decide +kernel⟩
  records := .cons _ _ _ _ (record_dir _) (.cons _ _ _ _ (record_dir _) (.cons _ [] _ _ (record_dir _) .nil))

example (fuel : Nat) : openSfs unascii fuel three = some (.error .structError) :=
  C48_fails_many three_holds (by decide) (by decide) (by decide) (by
    intro e he
    simp at he
    subst he
    decide) fuel

theorem paths_cycle : ∀ (fuel : Nat) (p : List Int), p.getLast? = some 0 → paths fuel [p] = none
  | 0, p, h => by
    rw [paths, if_neg]
    simp [h]
  | n + 1, p, h => by
    rw [paths, if_neg (by simp [h])]
    have : pathPass [p].length 0 [p] = .ok [p ++ p] := by
      simp [pathPass, h, pyGet]
    rw [this]
    exact paths_cycle n _ (by rw [List.getLast?_append, h]; rfl)

/-- Violation: a directory that is its own parent is not reported; the loop never ends. -/
theorem C48_fails_cycle (fuel : Nat) (name : Text) : tree fuel [(true, name, 0)] = none := by
  unfold tree
  rw [show [(true, name, (0 : Int))].map (fun it => [it.2.2]) = [[0]] from rfl, paths_cycle fuel [0] rfl]

/-- Violation: if the first file is empty, the container cannot be opened, whatever follows. -/
theorem C48_fails_first_empty (F : List UInt8) (name : Text) (parent : Int) (its : List Item) :
    isZlib F (⟨0, parent, false, name, []⟩ :: its) = .error .indexError := rfl

/-- Violation: a container without files cannot be opened. -/
theorem C48_fails_no_files (F : List UInt8) : ∀ its : List Item, (∀ it ∈ its, it.isDir = true) →
    isZlib F its = .error .attributeError
  | [], _ => rfl
  | it :: its, h => by
    rw [isZlib, if_pos (h it (List.mem_cons_self ..)),
      C48_fails_no_files F its fun x hx => h x (List.mem_cons_of_mem _ hx)]

end Verif.Props.Sfs
