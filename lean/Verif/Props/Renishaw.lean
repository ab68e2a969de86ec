import Verif.Lemmas.RenishawData
/-! C77-C80: `.wdf` files. -/
namespace Verif.Props.Renishaw
open Verif.Renishaw Verif.Spec.Renishaw Verif.Lemmas.Renishaw Verif.BytesSpec

/-! Files used as examples. -/

/-- A block. -/
def blk (name : String) (uid : Nat) (body : Bytes) : Block := ⟨name.toList.map fun c => UInt8.ofNat c.toNat, uid, body⟩

/-- A header. -/
def exHdr (P cap N type : Nat) : Bytes :=
  List.replicate 44 0 ++ leBytes 4 P ++ leBytes 8 cap ++ leBytes 8 N ++ List.replicate 8 0 ++ leBytes 4 P ++ List.replicate 40 0 ++
    leBytes 4 type ++ List.replicate 24 0

/-- A signal axis with two points 2.0 and 1.0 in 1/cm. -/
def exXlst : Bytes := leBytes 4 1 ++ leBytes 4 1 ++ leBytes 4 0x40000000 ++ leBytes 4 0x3f800000

/-- Intensities. -/
def exData (n : Nat) : Bytes := (List.range n).flatMap fun k => leBytes 4 (0x3f800000 + k)

/-- A map of three by two points. -/
def exWmap (flags : Nat) : Bytes :=
  leBytes 4 flags ++ leBytes 4 0 ++ leBytes 4 0x3f800000 ++ leBytes 4 0x40000000 ++ leBytes 4 0 ++ leBytes 4 0x3f000000 ++
    leBytes 4 0x40800000 ++ leBytes 4 0 ++ leBytes 4 3 ++ leBytes 4 2 ++ leBytes 4 0 ++ leBytes 4 0

/-- An entry of `ORGN`. -/
def exOrigin (type unit : Nat) (values : List Nat) : Bytes :=
  leBytes 4 type ++ leBytes 4 unit ++ List.replicate 16 65 ++ values.flatMap (leBytes 8)

/-- Metadata: a name and a number, and a name and an entry with a text. -/
def exSet : List (Nat × Node) :=
  [(1, .name [65, 66]), (1, .number 105 [255, 255, 255, 255]), (2, .name [67]),
    (2, .nested [(7, .text [72, 105]), (7, .name [88])])]

/-- The blocks of a map with two rows of three spectra. -/
def exMap (flags : Nat) : List Block :=
  [blk "WDF1" 1 (exHdr 2 6 6 3), blk "DATA" 0 (exData 12), blk "XLST" 0 exXlst,
    blk "ORGN" 0 (leBytes 4 1 ++ exOrigin 3 5 [0, 0, 0, 0, 0, 0]), blk "WMAP" 0 (exWmap flags), blk "WXIS" 0 (pset exSet [])]

/-- The blocks of a series of three spectra along z: 1.0, 3.0, 5.0; checksums and times are there, too. -/
def exSeries : List Block :=
  [blk "WDF1" 1 (exHdr 2 3 3 2), blk "DATA" 0 (exData 6), blk "XLST" 0 exXlst,
    blk "ORGN" 0 (leBytes 4 3 ++ exOrigin (5 + 2 ^ 31) 5 [0x3ff0000000000000, 0x4008000000000000, 0x4014000000000000] ++
      exOrigin 16 0 [0, 0, 0] ++ exOrigin 11 24 [5, 6, 7])]

/-- The blocks of a single spectrum. -/
def exSingle : List Block :=
  [blk "WDF1" 1 (exHdr 2 1 1 1), blk "DATA" 0 (exData 2), blk "XLST" 0 exXlst]

instance (b : Block) : Decidable b.Ok :=
  decidable_of_iff (b.name.length = 4 ∧ (∀ c ∈ b.name, c.toNat < 128) ∧ b.uid < 2 ^ 32 ∧ 16 + b.body.length < 2 ^ 63)
    ⟨fun ⟨a, b, c, d⟩ => ⟨a, b, c, d⟩, fun h => ⟨h.1, h.2, h.3, h.4⟩⟩

instance (bs : List Block) (l : String) (u : Nat) (body : Bytes) : Decidable (Has bs l u body) := by unfold Has; infer_instance

instance (b : Bytes) (P cap N t : Nat) : Decidable (Head b P cap N t) :=
  decidable_of_iff (144 ≤ b.length ∧ num b 44 4 = P ∧ num b 72 4 = P ∧ num b 48 8 = cap ∧ num b 56 8 = N ∧ num b 116 4 = t)
    ⟨fun ⟨a, b, c, d, e, f⟩ => ⟨a, b, c, d, e, f⟩, fun h => ⟨h.1, h.2, h.3, h.4, h.5, h.6⟩⟩

theorem exMap_wdf : Wdf ((exMap 0).flatMap Block.bytes) (exMap 0) :=
  ⟨rfl, by decide +kernel, by decide +kernel⟩

theorem exSeries_wdf : Wdf (exSeries.flatMap Block.bytes) exSeries :=
  ⟨rfl, by decide +kernel, by decide +kernel⟩

theorem exSingle_wdf : Wdf (exSingle.flatMap Block.bytes) exSingle :=
  ⟨rfl, by decide +kernel, by decide +kernel⟩

/-! C77: blocks. -/

/-- C77: in a file that is a sequence of blocks, each block is found: its position and its size (with its 16 bytes of name, number and size), so
that its contents are at this position; and only these blocks are found. What is missing: blocks of the same name and number, and bytes after the last block
(`C77_fails_trailing`), and sizes that are not sizes of blocks (`C77_fails_zero`). -/
theorem C77_partial {f : Bytes} {bs : List Block} (h : Wdf f bs) (rounds : Nat) (hr : bs.length < rounds) :
    ∃ blocks, locate f rounds 0 false [] = some (.ok blocks) ∧
      (∀ b ∈ bs, ∃ p, getKw (title b.label b.uid) blocks = some (p, 16 + (b.body.length : Int)) ∧ p + b.body.length ≤ f.length ∧
        (f.drop p).take b.body.length = b.body) ∧
      ∀ l u, (∀ b ∈ bs, ¬ (b.label = l ∧ b.uid = u)) → getKw (title l u) blocks = none := by
  refine ⟨place 0 bs [], wdf_locate h rounds hr, ?_, ?_⟩
  · intro b hb
    obtain ⟨p, h1, h2⟩ := wdf_found h hb
    exact ⟨p, by rw [h1]; push_cast; rfl, h2.le, h2.eq⟩
  · intro l u hn
    exact wdf_missing h hn

example : ∃ f bs, Wdf f bs ∧ bs.length = 6 ∧ ∃ b ∈ bs, title b.label b.uid = "ORGN_0".toList :=
  ⟨_, _, exMap_wdf, rfl, by decide +kernel⟩

/-- C77 fails: when the size of a block is stored as 0, the search for blocks never ends. -/
theorem C77_fails_zero : ∃ f : Bytes, ∀ rounds, locate f rounds 0 false [] = none := by
  refine ⟨[87, 68, 70, 49] ++ leBytes 4 1 ++ leBytes 8 0, ?_⟩
  have key : ∀ rounds named blocks, locate ([87, 68, 70, 49] ++ leBytes 4 1 ++ leBytes 8 0) rounds 0 named blocks = none := by
    intro rounds
    induction rounds with
    | zero => intro named blocks; rw [locate]
    | succ n ih =>
      intro named blocks
      rw [locate, if_neg (by decide), if_neg (by decide)]
      have h1 : decode (chunk ([87, 68, 70, 49] ++ leBytes 4 1 ++ leBytes 8 0) (0 : Int).toNat 4) = .ok "WDF1".toList := by decide
      have h2 : number ([87, 68, 70, 49] ++ leBytes 4 1 ++ leBytes 8 0) ((0 : Int).toNat + 4) 4 = .ok 1 := by decide
      have h3 : number ([87, 68, 70, 49] ++ leBytes 4 1 ++ leBytes 8 0) ((0 : Int).toNat + 8) 8 = .ok 0 := by decide
      rw [h1, h2, h3]
      dsimp only
      exact ih _ _
  exact fun rounds => key rounds _ _

/-- C77 fails: one to fifteen more characters at the end of the file make the reader raise an `IndexError`; the code means to warn ("Missing characters at the
end of the file") and to go on, but waits for an `EOFError`. -/
theorem C77_fails_trailing {f tail : Bytes} {bs : List Block} (hf : f = bs.flatMap Block.bytes ++ tail) (hb : ∀ b ∈ bs, b.Ok)
    (h0 : tail ≠ []) (h1 : tail.length < 16) (h2 : ∀ c ∈ tail, c.toNat < 128) (rounds : Nat) (hr : bs.length < rounds) (lazy u : Bool)
    (hl : lazy = false) : fileReader rounds f lazy u = some (.error .indexError) := by
  obtain ⟨k, rfl⟩ : ∃ k, rounds = (k + 1) + bs.length := ⟨rounds - 1 - bs.length, by omega⟩
  have hpos : 0 < tail.length := List.length_pos_iff.mpr h0
  have hloc := locate_all bs f [] tail (k + 1) false [] (by rw [hf]; simp) hb
  rw [List.length_nil, Nat.cast_zero, List.nil_append] at hloc
  have hlen : f.length = (bs.flatMap Block.bytes).length + tail.length := by rw [hf, List.length_append]
  have hd : decode (chunk f (bs.flatMap Block.bytes).length 4) = .ok (chars (tail.take 4)) := by
    unfold chunk
    rw [hf, List.drop_left]
    exact decode_ascii fun c hc => h2 c (List.mem_of_mem_take hc)
  have hstep : locate f (k + 1) ((bs.flatMap Block.bytes).length : Int) (false || !bs.isEmpty) (place 0 bs []) = some (.error .indexError) := by
    rw [locate, if_neg (by omega), if_neg (by omega), Int.toNat_natCast, hd]
    have hn : number f ((bs.flatMap Block.bytes).length + 8) 8 = .error .indexError := by
      unfold number; rw [if_neg (by omega)]
    dsimp only
    rw [hn]
    cases hu : number f ((bs.flatMap Block.bytes).length + 4) 4 with
    | ok uid => rfl
    | error e =>
      dsimp only
      unfold number at hu
      split at hu
      · cases hu
      · injection hu with hu
        rw [← hu]
  subst hl
  unfold fileReader
  rw [if_neg (by simp), hloc, hstep]
  rfl

example : ∃ (f : Bytes) (bs : List Block) (tail : Bytes), f = bs.flatMap Block.bytes ++ tail ∧ (∀ b ∈ bs, Block.Ok b) ∧ tail ≠ [] ∧ tail.length < 16 ∧
    ∀ c ∈ tail, c.toNat < 128 :=
  ⟨_, exSingle, [10], rfl, by decide +kernel, by decide, by decide, by decide⟩

/-! C78: metadata. -/

theorem has_found {f : Bytes} {bs : List Block} (h : Wdf f bs) {l : String} {u : Nat} {body : Bytes} (hb : Has bs l u body) {k : Text}
    (hk : title l.toList u = k) : Found f (place 0 bs []) k body := by
  obtain ⟨b, h1, h2, h3, h4⟩ := hb
  have := wdf_found h h1
  rw [h2, h3, h4, hk] at this
  exact this

theorem reader_eq {f : Bytes} {bs : List Block} (h : Wdf f bs) {rounds : Nat} (hr : bs.length < rounds) (u : Bool) :
    fileReader rounds f false u = some (readFile f (place 0 bs []) u) := by
  unfold fileReader
  rw [if_neg (by simp), wdf_locate h rounds hr]
  rfl

theorem readFile_meta {f : Bytes} {blocks : Blocks} {u : Bool} {r : Result} (hr : readFile f blocks u = .ok r) :
    ∃ m, readMeta f blocks = .ok m ∧ r.metadata = m.1 := by
  unfold readFile at hr
  obtain ⟨h, _, hr⟩ := bind_ok.mp hr
  obtain ⟨_, _, hr⟩ := bind_ok.mp hr
  obtain ⟨m, hm, hr⟩ := bind_ok.mp hr
  refine ⟨m, hm, ?_⟩
  obtain ⟨_, _, hr⟩ := bind_ok.mp hr
  obtain ⟨_, _, hr⟩ := bind_ok.mp hr
  obtain ⟨_, _, hr⟩ := bind_ok.mp hr
  obtain ⟨_, _, hr⟩ := bind_ok.mp hr
  obtain ⟨_, _, hr⟩ := bind_ok.mp hr
  obtain ⟨_, _, hr⟩ := bind_ok.mp hr
  obtain ⟨_, _, hr⟩ := bind_ok.mp hr
  injection hr with hr
  rw [← hr]

/-- C78: the metadata of a block in the result are the entries of the block: each name has the value with the same number, numbers have the value that their bytes encode in the
type of their letter, entries in entries are dictionaries in the same way, and there is nothing else. What is missing: arrays of one number
(`C78_fails_array`), flags that are not known (`C78_fails_flag`), and blocks `WXDM`, with which a file is only read if entries are left over (`C78_fails_wxdm`). -/
theorem C78_partial {f : Bytes} {bs : List Block} {label : String} {uid : Nat} {es : List (Nat × Node)} {extra : Bytes} {rounds : Nat} {u : Bool}
    {r : Result} (h : Wdf f bs) (hr : bs.length < rounds)
    (hl : (label, uid) ∈ [("WXIS", 0), ("WXCS", 0), ("WXDA", 0), ("ZLDC", 0), ("WARP", 0), ("WARP", 1), ("WXDM", 0)])
    (hb : Has bs label uid (pset es extra)) (hes : es ≠ []) (hok : (Node.nested es).Ok)
    (hread : fileReader rounds f false u = some (.ok r)) :
    ∃ d, getKw (title label.toList uid) r.metadata = some d ∧ Means (.nested es) (.nested d) := by
  rw [reader_eq h hr] at hread
  injection hread with hread
  obtain ⟨m, h1, h2⟩ := readFile_meta hread
  have hmean : Means (.nested es) (.nested (matched (keysOf es) (valsOf es))) := by
    have := node_means (.nested es) hok (by simp)
    rwa [valueOf] at this
  have key : ∀ id : String, id ∈ metaIds → title label.toList uid = id.toList →
      ∃ d, getKw (title label.toList uid) r.metadata = some d ∧ Means (.nested es) (.nested d) := by
    intro id hid ht
    refine ⟨_, ?_, hmean⟩
    rw [ht, h2]
    exact readMeta_found (has_found h hb ht) hes hok hid h1
  simp only [List.mem_cons, List.not_mem_nil, or_false, Prod.mk.injEq] at hl
  rcases hl with ⟨rfl, rfl⟩ | ⟨rfl, rfl⟩ | ⟨rfl, rfl⟩ | ⟨rfl, rfl⟩ | ⟨rfl, rfl⟩ | ⟨rfl, rfl⟩ | ⟨rfl, rfl⟩
  · exact key "WXIS_0" (by decide) (by decide)
  · exact key "WXCS_0" (by decide) (by decide)
  · exact key "WXDA_0" (by decide) (by decide)
  · exact key "ZLDC_0" (by decide) (by decide)
  · exact key "WARP_0" (by decide) (by decide)
  · exact key "WARP_1" (by decide) (by decide)
  · exact key "WXDM_0" (by decide) (by decide)

theorem exSet_ok : (Node.nested exSet).Ok := by
  unfold exSet
  simp [Node.Ok, EntriesOk, Node.isName, Node.chars, chars, wide, setBytes, nodeBytes, leBytes]

example : ∃ f bs rounds, Wdf f bs ∧ bs.length < rounds ∧ Has bs "WXIS" 0 (pset exSet []) ∧ exSet ≠ [] ∧ (Node.nested exSet).Ok ∧
    ∃ r, fileReader rounds f false false = some (.ok r) ∧ getKw "AB".toList ((getKw "WXIS_0".toList r.metadata).getD []) = some (.int (-1)) := by
  refine ⟨_, _, 7, exMap_wdf, by decide, by decide +kernel, by simp [exSet], exSet_ok, ?_⟩
  have : (match fileReader 7 ((exMap 0).flatMap Block.bytes) false false with
    | some (.ok r) => match getKw "AB".toList ((getKw "WXIS_0".toList r.metadata).getD []) with
      | some (.int i) => i == -1
      | _ => false
    | _ => false) = true := by decide +kernel
  split at this
  · rename_i r hr
    refine ⟨r, hr, ?_⟩
    split at this
    · rename_i i hi
      rw [hi]
      simpa using this
    · cases this
  · cases this

/-- The entries of metadata of a block, read by the reader. -/
def exRead (es : Bytes) : Py Dict := (readSet (es.length + 1) es.length "A".toList es [] [] []).map Prod.fst

/-- C78 fails: an array with one number is read as a number. -/
theorem C78_fails_array : ∃ raws : List Bytes, raws.length = 1 ∧ (∀ raw ∈ raws, raw.length = 4) ∧
    ∃ d, exRead (setBytes [(1, .name [65]), (1, .array 105 raws)]) = .ok d ∧ ∀ vs, getKw "A".toList d ≠ some (.many vs) := by
  refine ⟨[[1, 0, 0, 0]], rfl, by decide, [("A".toList, .int 1)], rfl, ?_⟩
  intro vs
  simp [getKw]

/-- C78 fails: an entry with a flag that is not known is read as if it had none; the code means to leave out the block with an error message. -/
theorem C78_fails_flag : exRead ([107, 0, 1, 0] ++ leBytes 4 1 ++ [65] ++ [105, 1, 1, 0] ++ [7, 0, 0, 0]) = .ok [("A".toList, .int 7)] := rfl

/-- C78 fails: a file with a block `WXDM` in which every name has a value and every value a name cannot be read. -/
theorem C78_fails_wxdm : ∃ f bs, Wdf f bs ∧ Has bs "WXDM" 0 (pset exSet []) ∧ (Node.nested exSet).Ok ∧
    (∃ b ∈ bs, b.label = "WXDM".toList ∧ ∃ r, fileReader 4 ((bs.filter fun x => x ≠ b).flatMap Block.bytes) false false = some (.ok r)) ∧
    ∀ rounds, 4 < rounds → fileReader rounds f false false = some (.error .keyError) := by
  have hw : Wdf ((exSingle ++ [blk "WXDM" 0 (pset exSet [])]).flatMap Block.bytes) (exSingle ++ [blk "WXDM" 0 (pset exSet [])]) :=
    ⟨rfl, by decide +kernel, by decide +kernel⟩
  refine ⟨_, _, hw, by decide +kernel, exSet_ok, ?_, ?_⟩
  · refine ⟨blk "WXDM" 0 (pset exSet []), by simp, by decide, ?_⟩
    have : (match fileReader 4 (((exSingle ++ [blk "WXDM" 0 (pset exSet [])]).filter fun x => x ≠ blk "WXDM" 0 (pset exSet [])).flatMap Block.bytes)
        false false with
      | some (.ok _) => true
      | _ => false) = true := by decide +kernel
    split at this
    · rename_i r hr
      exact ⟨r, hr⟩
    · cases this
  · intro rounds hr
    rw [reader_eq hw (by exact hr)]
    have : (match readFile ((exSingle ++ [blk "WXDM" 0 (pset exSet [])]).flatMap Block.bytes) (place 0 (exSingle ++ [blk "WXDM" 0 (pset exSet [])]) []) false with
      | .error .keyError => true
      | _ => false) = true := by decide +kernel
    split at this
    · rename_i hh
      rw [hh]
    · cases this

end Verif.Props.Renishaw
