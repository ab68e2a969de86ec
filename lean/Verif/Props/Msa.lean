import Verif.Model.Msa
import Verif.Py.Dec
/-!
C25 and C26: .msa files.
-/
namespace Verif.Props.Msa
open Verif Verif.Msa

variable {F : Type}

/-! ### C25 -/

/-- A text that survives on one line: representable in Latin-1, no line ends, no `": "`, no white
space at the end. -/
structure GoodText (s : Text) : Prop where
  latin : ∀ c ∈ s, c.toNat < 256
  cr : '\r' ∉ s
  lf : '\n' ∉ s
  sep : ¬ [':', ' '] <:+: s
  last : ∀ c ∈ s.getLast?, isSpace c = false

/-- A keyword: representable, without colon or line end, not delimited by white space or `#`, not
the word that ends the header, at most one dash. -/
structure GoodKey (k : Text) : Prop where
  latin : ∀ c ∈ k, c.toNat < 256
  colon : ':' ∉ k
  cr : '\r' ∉ k
  lf : '\n' ∉ k
  head : ∀ c ∈ k.head?, isSpace c = false ∧ c ≠ '#'
  last : ∀ c ∈ k.getLast?, isSpace c = false ∧ c ≠ '#'
  ne : k ≠ kSPECTRUM
  dash : ∃ c, cleanPar k = .ok c

/-- The value has the type the table gives its keyword: floats for float keywords, texts for the
others; the empty text for any. -/
def Typed (parseF : Text → Option F) (showF : F → Text) (tbl : Table) (k : Text) : Val F → Prop
  | .str s => s = [] ∨ ∀ c kw, cleanPar k = .ok c → getKw c tbl = some kw → kw.isFloat = false
  | .num x => showF x ≠ [] ∧ parseF (showF x) = some x ∧
      ∃ c kw, cleanPar k = .ok c ∧ getKw c tbl = some kw ∧ kw.isFloat = true
  | .none => False

/-- The text of the value survives: for titles and comments, piece by piece. -/
def GoodLines (showF : F → Text) (kv : Text × Val F) : Prop :=
  match kv.2 with
  | .str s => if kv.1 ∈ [kTITLE, kCOMMENT] ∧ s ≠ [] then ∀ c ∈ chunks64 s.length s, GoodText c
      else GoodText s
  | v => GoodText (valText showF v)

theorem parseLine_header {k v : Text} (hk : GoodKey k) (hv : GoodText v) :
    parseLine (headerLine k v ++ ['\n']) = (k, some v) := by
  have hcol : ':' ∉ '#' :: ljust 12 k := by
    intro h
    rcases List.mem_cons.1 h with h | h
    · exact absurd h (by decide)
    · unfold ljust at h
      rcases List.mem_append.1 h with h | h
      · exact hk.colon h
      · exact absurd (List.eq_of_mem_replicate h) (by decide)
  have hsep : ¬ [':', ' '] <:+: v ++ ['\n'] := by
    rw [List.infix_concat_iff]
    rintro (⟨p, h⟩ | h)
    · have := congrArg List.getLast? h
      simp at this
    · exact hv.sep h
  have hsplit : splitPair ':' ' ' (headerLine k v ++ ['\n']) =
      ['#' :: ljust 12 k, v ++ ['\n']] := by
    have : headerLine k v ++ ['\n'] = ('#' :: ljust 12 k) ++ ':' :: ' ' :: (v ++ ['\n']) := by
      simp [headerLine]
    rw [this, splitPair_append hcol, splitPair_none hsep]
  have hval : rstripBy isSpace (v ++ ['\n']) = v := by
    rw [rstripBy_append (by simp; decide)]
    exact rstripBy_id hv.last
  have hl : lstripBy (fun c => decide (c = '#')) ('#' :: ljust 12 k) = ljust 12 k := by
    unfold lstripBy
    rw [List.dropWhile_cons_of_pos (by simp)]
    apply lstripBy_id
    intro c hc
    unfold ljust at hc
    cases k with
    | nil =>
      simp at hc
      simp [← hc]
    | cons a k =>
      have := hk.head a rfl
      simp at hc
      simp [← hc, this.2]
  have hsp : ∀ c, c ∈ List.replicate (12 - k.length) ' ' → isSpace c = true := by
    intro c hc
    rw [List.eq_of_mem_replicate hc]
    decide
  have hr : rstripBy (fun c => decide (c = '#')) (ljust 12 k) = ljust 12 k := by
    apply rstripBy_id
    intro c hc
    unfold ljust at hc
    rw [List.getLast?_append] at hc
    cases hrep : (List.replicate (12 - k.length) ' ').getLast? with
    | none =>
      rw [hrep] at hc
      simpa using (hk.last c (by simpa using hc)).2
    | some d =>
      rw [hrep] at hc
      have hd := List.eq_of_mem_replicate (List.mem_of_getLast? hrep)
      simp at hc
      simp [← hc, hd]
  have hs : stripBy isSpace (ljust 12 k) = k := by
    unfold stripBy
    have hk' : rstripBy isSpace k = k := rstripBy_id (fun c hc => (hk.last c hc).1)
    cases k with
    | nil => decide
    | cons a k =>
      have : lstripBy isSpace (ljust 12 (a :: k)) = ljust 12 (a :: k) := by
        apply lstripBy_id
        intro c hc
        simp [ljust] at hc
        rw [← hc]
        exact (hk.head a rfl).1
      rw [this]
      unfold ljust
      rw [rstripBy_append hsp, hk']
  unfold parseLine
  rw [hsplit]
  simp only [hval]
  rw [show stripBy (fun c => decide (c = '#')) ('#' :: ljust 12 k) = ljust 12 k by
    unfold stripBy; rw [hl, hr], hs]

theorem headerLine_head (k v : Text) : (headerLine k v ++ ['\n']).head? = some '#' := rfl

/-- One line of a keyword not seen before. -/
theorem parseHeader_new {k v : Text} (hk : GoodKey k) (hv : GoodText v) {ps : Params}
    (hnew : k ∉ ps.map Prod.fst) (rest : List Text) :
    parseHeader ((headerLine k v ++ ['\n']) :: rest) ps =
      parseHeader rest (ps ++ [(k, some v)]) := by
  rw [parseHeader, if_pos (headerLine_head k v), parseLine_header hk hv]
  dsimp only
  rw [getKw_none hnew, if_neg (by simp), if_pos hk.ne, setKw_new hnew]

/-- A further line of the keyword of the line before. -/
theorem parseHeader_more {k v old : Text} (hk : GoodKey k) (hv : GoodText v) {ps : Params}
    (hnew : k ∉ ps.map Prod.fst) (hm : k ∈ [kTITLE, kCOMMENT]) (rest : List Text) :
    parseHeader ((headerLine k v ++ ['\n']) :: rest) (ps ++ [(k, some old)]) =
      parseHeader rest (ps ++ [(k, some (old ++ v))]) := by
  rw [parseHeader, if_pos (headerLine_head k v), parseLine_header hk hv]
  dsimp only
  rw [getKw_append hnew, if_pos ⟨hm, rfl⟩]
  dsimp only
  rw [setKw_append hnew]

theorem parseHeader_chunks {k : Text} (hk : GoodKey k) (hm : k ∈ [kTITLE, kCOMMENT])
    {ps : Params} (hnew : k ∉ ps.map Prod.fst) (rest : List Text) :
    ∀ (cs : List Text) (old : Text), (∀ c ∈ cs, GoodText c) →
    parseHeader (cs.map (fun c => headerLine k c ++ ['\n']) ++ rest) (ps ++ [(k, some old)]) =
      parseHeader rest (ps ++ [(k, some (old ++ cs.flatten))])
  | [], old, _ => by simp
  | c :: cs, old, h => by
    rw [List.map_cons, List.cons_append,
      parseHeader_more hk (h c (List.mem_cons_self ..)) hnew hm,
      parseHeader_chunks hk hm hnew rest cs _ (fun d hd => h d (List.mem_cons_of_mem _ hd))]
    simp

theorem chunks64_flatten : ∀ (n : Nat) (s : Text), s.length ≤ n → (chunks64 n s).flatten = s
  | 0, s, h => by
    have : s = [] := by simpa using h
    simp [chunks64, this]
  | n + 1, s, h => by
    unfold chunks64
    split
    · rename_i h; simp [h]
    · rename_i h'
      have : 0 < s.length := List.length_pos_iff.2 h'
      rw [List.flatten_cons, chunks64_flatten n (s.drop 64) (by simp; omega), List.take_append_drop]

/-- The lines of one keyword add that keyword with the text of its value. -/
theorem parseHeader_keyword {showF : F → Text} {kv : Text × Val F} (hk : GoodKey kv.1)
    (hv : GoodLines showF kv) {ps : Params} (hnew : kv.1 ∉ ps.map Prod.fst) (rest : List Text) :
    parseHeader ((keywordLines showF kv).map (· ++ ['\n']) ++ rest) ps =
      parseHeader rest (ps ++ [(kv.1, some (valText showF kv.2))]) := by
  obtain ⟨k, v⟩ := kv
  unfold GoodLines at hv
  unfold keywordLines
  cases v with
  | str s =>
    dsimp only at hk hv hnew ⊢
    split
    · rename_i hc
      rw [if_pos hc] at hv
      have hpos : 0 < s.length := List.length_pos_iff.2 hc.2
      obtain ⟨n, hn⟩ : ∃ n, s.length = n + 1 := ⟨s.length - 1, by omega⟩
      have hcs : chunks64 s.length s = s.take 64 :: chunks64 n (s.drop 64) := by
        rw [hn, chunks64, if_neg hc.2]
      rw [hcs] at hv ⊢
      rw [List.map_cons, List.map_cons, List.cons_append,
        parseHeader_new hk (hv _ (List.mem_cons_self ..)) hnew, List.map_map]
      have := parseHeader_chunks hk hc.1 hnew rest (chunks64 n (s.drop 64)) (s.take 64)
        (fun d hd => hv d (List.mem_cons_of_mem _ hd))
      rw [chunks64_flatten n (s.drop 64) (by simp; omega), List.take_append_drop] at this
      exact this
    · rename_i hc
      rw [if_neg hc] at hv
      simpa [valText] using parseHeader_new hk hv hnew rest
  | num x => simpa using parseHeader_new hk hv hnew rest
  | none => simpa using parseHeader_new hk hv hnew rest

theorem parseHeader_all {showF : F → Text} (rest : List Text) :
    ∀ (kwds : List (Text × Val F)) (ps : Params), (∀ kv ∈ kwds, GoodKey kv.1) →
    (∀ kv ∈ kwds, GoodLines showF kv) → (ps.map Prod.fst ++ kwds.map Prod.fst).Nodup →
    parseHeader ((kwds.flatMap (keywordLines showF)).map (· ++ ['\n']) ++ rest) ps =
      parseHeader rest (ps ++ kwds.map fun kv => (kv.1, some (valText showF kv.2)))
  | [], ps, _, _, _ => by simp
  | kv :: kwds, ps, hk, hv, hnd => by
    have hnew : kv.1 ∉ ps.map Prod.fst := by
      intro h
      rw [List.nodup_append] at hnd
      exact hnd.2.2 _ h _ (by simp) rfl
    rw [List.flatMap_cons, List.map_append, List.append_assoc,
      parseHeader_keyword (hk kv (List.mem_cons_self ..)) (hv kv (List.mem_cons_self ..)) hnew,
      parseHeader_all rest kwds _ (fun e he => hk e (List.mem_cons_of_mem _ he))
        (fun e he => hv e (List.mem_cons_of_mem _ he)) (by simpa using hnd)]
    simp

/-- Text lines that contain no line ends, written with `\r\n`, come back as the lines. -/
theorem fileLines_lines : ∀ (ls : List Text) (t : Text), (∀ l ∈ ls, '\r' ∉ l ∧ '\n' ∉ l) →
    fileLines (ls.flatMap (· ++ crlf) ++ t) = ls.map (· ++ ['\n']) ++ fileLines t
  | [], t, _ => by simp
  | l :: ls, t, h => by
    have hl := h l (List.mem_cons_self ..)
    have := fileLines_crlf (ls.flatMap (· ++ crlf) ++ t) hl.1 hl.2
    rw [List.flatMap_cons, List.append_assoc, List.append_assoc]
    refine this.trans ?_
    rw [fileLines_lines ls t (fun m hm => h m (List.mem_cons_of_mem _ hm))]
    rfl

theorem headerLine_mem {k v : Text} {c : Char} (h : c ∈ headerLine k v) :
    c = '#' ∨ c = ' ' ∨ c = ':' ∨ c ∈ k ∨ c ∈ v := by
  simp only [headerLine, ljust, List.cons_append, List.mem_cons, List.mem_append] at h
  rcases h with h | (h | h) | h | h | h
  · exact .inl h
  · exact .inr (.inr (.inr (.inl h)))
  · exact .inr (.inl (List.eq_of_mem_replicate h))
  · exact .inr (.inr (.inl h))
  · exact .inr (.inl h)
  · exact .inr (.inr (.inr (.inr h)))

theorem goodLine {k v : Text} (hk : GoodKey k) (hv : GoodText v) :
    '\r' ∉ headerLine k v ∧ '\n' ∉ headerLine k v ∧ ∀ c ∈ headerLine k v, c.toNat < 256 := by
  refine ⟨fun h => ?_, fun h => ?_, fun c h => ?_⟩
  · rcases headerLine_mem h with h | h | h | h | h
    · exact absurd h (by decide)
    · exact absurd h (by decide)
    · exact absurd h (by decide)
    · exact hk.cr h
    · exact hv.cr h
  · rcases headerLine_mem h with h | h | h | h | h
    · exact absurd h (by decide)
    · exact absurd h (by decide)
    · exact absurd h (by decide)
    · exact hk.lf h
    · exact hv.lf h
  · rcases headerLine_mem h with h | h | h | h | h
    · subst h; decide
    · subst h; decide
    · subst h; decide
    · exact hk.latin c h
    · exact hv.latin c h

theorem goodKeywordLines {showF : F → Text} {kv : Text × Val F} (hk : GoodKey kv.1)
    (hv : GoodLines showF kv) : ∀ l ∈ keywordLines showF kv,
    '\r' ∉ l ∧ '\n' ∉ l ∧ ∀ c ∈ l, c.toNat < 256 := by
  obtain ⟨k, v⟩ := kv
  unfold GoodLines at hv
  unfold keywordLines
  intro l hl
  cases v with
  | str s =>
    dsimp only at hl hk hv
    split at hl
    · rename_i hc
      rw [if_pos hc] at hv
      obtain ⟨c, hc', rfl⟩ := List.mem_map.1 hl
      exact goodLine hk (hv c hc')
    · rename_i hc
      rw [if_neg hc] at hv
      rw [List.mem_singleton.1 hl]
      exact goodLine hk hv
  | num x => rw [List.mem_singleton.1 hl]; exact goodLine hk hv
  | none => rw [List.mem_singleton.1 hl]; exact goodLine hk hv

theorem convertAll_typed {parseF : Text → Option F} {showF : F → Text} {tbl : Table} :
    ∀ kwds : List (Text × Val F), (∀ kv ∈ kwds, GoodKey kv.1) →
    (∀ kv ∈ kwds, Typed parseF showF tbl kv.1 kv.2) →
    convertAll parseF tbl (kwds.map fun kv => (kv.1, some (valText showF kv.2))) = .ok kwds
  | [], _, _ => rfl
  | (k, v) :: kwds, hk, ht => by
    obtain ⟨c, hc⟩ := (hk _ (List.mem_cons_self ..)).dash
    have hv := ht _ (List.mem_cons_self ..)
    dsimp only at hc hv
    rw [List.map_cons, convertAll]
    dsimp only
    rw [hc]
    dsimp only
    rw [convertAll_typed kwds (fun e he => hk e (List.mem_cons_of_mem _ he))
      (fun e he => ht e (List.mem_cons_of_mem _ he))]
    dsimp only
    congr 3
    unfold convert
    cases v with
    | none => exact absurd hv id
    | str s =>
      dsimp only [valText]
      split
      · rfl
      · rename_i hs
        split
        · rfl
        · rename_i kw hkw
          rcases hv with hv | hv
          · exact absurd hv hs
          · rw [hv c kw hc hkw]; rfl
    | num x =>
      obtain ⟨hne, hp, c', kw, hc', hkw, hf⟩ := hv
      rw [hc] at hc'
      cases hc'
      dsimp only [valText]
      rw [if_neg hne, hkw]
      dsimp only
      rw [if_pos hf, hp]

/-- C25, partial: a header whose keywords and values are representable (see `GoodKey`, `GoodLines`)
and of the type the format prescribes (`Typed`) is read back unchanged: same keywords, same order,
same values, whatever the data section. Missing: the other values, see the theorems below. -/
theorem C25_header_partial {parseF : Text → Option F} {showF : F → Text} {tbl : Table}
    {kwds : List (Text × Val F)} (body : Text) (hnd : (kwds.map Prod.fst).Nodup)
    (hfmt : getKw kFORMAT kwds = some (.str formatText))
    (hk : ∀ kv ∈ kwds, GoodKey kv.1) (hv : ∀ kv ∈ kwds, GoodLines showF kv)
    (ht : ∀ kv ∈ kwds, Typed parseF showF tbl kv.1 kv.2) :
    parseMsa parseF tbl (msaText showF kwds body) = .ok kwds := by
  have hlines : ∀ l ∈ kwds.flatMap (keywordLines showF),
      '\r' ∉ l ∧ '\n' ∉ l ∧ ∀ c ∈ l, c.toNat < 256 := by
    intro l hl
    obtain ⟨kv, hkv, hl⟩ := List.mem_flatMap.1 hl
    exact goodKeywordLines (hk kv hkv) (hv kv hkv) l hl
  have hfilter : ∀ (ls : List Text), (∀ l ∈ ls, ∀ c ∈ l, c.toNat < 256) →
      (ls.flatMap (· ++ crlf)).filter (fun c => c.toNat < 256) = ls.flatMap (· ++ crlf) := by
    intro ls h
    rw [List.filter_eq_self]
    intro c hc
    obtain ⟨l, hl, hc⟩ := List.mem_flatMap.1 hc
    rcases List.mem_append.1 hc with hc | hc
    · simpa using h l hl c hc
    · simp only [crlf, List.mem_cons, List.not_mem_nil, or_false] at hc
      rcases hc with rfl | rfl <;> decide
  have hspec : (headerLine kSPECTRUM startsHere ++ crlf).filter (fun c => c.toNat < 256) =
      headerLine kSPECTRUM startsHere ++ crlf := by decide
  have hspl : fileLines (headerLine kSPECTRUM startsHere ++ crlf ++
      body.filter (fun c => c.toNat < 256)) = (headerLine kSPECTRUM startsHere ++ ['\n']) ::
      fileLines (body.filter (fun c => c.toNat < 256)) := by
    rw [List.append_assoc]
    exact fileLines_crlf _ (by decide) (by decide)
  have hstop : ∀ (rest : List Text) (ps : Params),
      kSPECTRUM ∉ ps.map Prod.fst →
      parseHeader ((headerLine kSPECTRUM startsHere ++ ['\n']) :: rest) ps = .ok ps := by
    intro rest ps _
    have hp : parseLine (headerLine kSPECTRUM startsHere ++ ['\n']) =
        (kSPECTRUM, some startsHere) := by decide
    rw [parseHeader, if_pos (headerLine_head _ _), hp]
    dsimp only
    rw [if_neg (fun h => absurd h.1 (by decide)), if_neg (by simp)]
  unfold parseMsa msaText
  rw [List.filter_append, List.filter_append, hspec, hfilter _ (fun l hl => (hlines l hl).2.2),
    List.append_assoc, fileLines_lines _ _ (fun l hl => ⟨(hlines l hl).1, (hlines l hl).2.1⟩), hspl,
    parseHeader_all _ kwds [] hk hv (by simpa using hnd)]
  have hns : kSPECTRUM ∉ (([] : Params) ++ kwds.map fun kv =>
      (kv.1, some (valText showF kv.2))).map Prod.fst := by
    simp only [List.nil_append, List.map_map]
    intro h
    obtain ⟨kv, hkv, e⟩ := List.mem_map.1 h
    exact (hk kv hkv).ne e
  rw [hstop _ _ hns]
  dsimp only
  rw [List.nil_append]
  have hget : ∀ d : List (Text × Val F), getKw kFORMAT d = some (.str formatText) →
      getKw kFORMAT (d.map fun kv => (kv.1, some (valText showF kv.2))) =
        some (some formatText) := by
    intro d
    induction d with
    | nil => intro h; simp [getKw] at h
    | cons e d ih =>
      intro h
      obtain ⟨k, v⟩ := e
      unfold getKw at h
      rw [List.map_cons, getKw]
      dsimp only
      split at h
      · rename_i hkk
        rw [if_pos hkk]
        cases h
        rfl
      · rename_i hkk
        rw [if_neg hkk, ih h]
  rw [setKw_same (hget kwds hfmt)]
  exact convertAll_typed kwds hk ht

/-! ### Concrete headers; floats are natural numbers with their decimal notation -/

def parseNat (t : Text) : Option Nat := if t ≠ [] ∧ t.all isDigit then some (decVal t) else none

/-- Part of the table of keywords. -/
def sampleTable : Table :=
  [(kFORMAT, ⟨false, none⟩), (kVERSION, ⟨false, none⟩),
   (kTITLE, ⟨false, some "General.title".toList⟩), ("OWNER".toList, ⟨false, none⟩),
   ("NPOINTS".toList, ⟨true, none⟩), ("XUNITS".toList, ⟨false, none⟩),
   (kCOMMENT, ⟨false, none⟩),
   ("BEAMKV".toList, ⟨true, some "Acquisition_instrument.TEM.beam_energy".toList⟩)]

def sampleHeader : List (Text × Val Nat) :=
  [(kFORMAT, .str formatText), (kVERSION, .str "1.0".toList),
   (kTITLE, .str (List.replicate 70 'x' ++ "a:b c".toList)), ("OWNER".toList, .str []),
   ("NPOINTS".toList, .num 1024), ("BEAMKV-kV".toList, .num 200)]

/-- A header with a title over two lines, an empty value, numbers and a unit. -/
example : parseMsa parseNat sampleTable (msaText decChars sampleHeader "1.0, \r\n".toList) =
    .ok sampleHeader := by decide +kernel

theorem sample_keys : ∀ kv ∈ sampleHeader, GoodKey kv.1 := by
  have h : ∀ kv ∈ sampleHeader, (∀ c ∈ kv.1, c.toNat < 256) ∧ ':' ∉ kv.1 ∧ '\r' ∉ kv.1 ∧
      '\n' ∉ kv.1 ∧ (∀ c ∈ kv.1.head?, isSpace c = false ∧ c ≠ '#') ∧
      (∀ c ∈ kv.1.getLast?, isSpace c = false ∧ c ≠ '#') ∧ kv.1 ≠ kSPECTRUM ∧
      (cleanPar kv.1).toOption.isSome = true := by decide +kernel
  intro kv hkv
  obtain ⟨h1, h2, h3, h4, h5, h6, h7, h8⟩ := h kv hkv
  refine ⟨h1, h2, h3, h4, h5, h6, h7, ?_⟩
  cases hc : cleanPar kv.1 with
  | ok c => exact ⟨c, rfl⟩
  | error e => rw [hc] at h8; exact absurd h8 (by simp [Except.toOption])

theorem sample_lines : ∀ kv ∈ sampleHeader, GoodLines decChars kv := by
  have good : ∀ {s : Text}, ((∀ c ∈ s, c.toNat < 256) ∧ '\r' ∉ s ∧ '\n' ∉ s ∧
      ¬ [':', ' '] <:+: s ∧ ∀ c ∈ s.getLast?, isSpace c = false) → GoodText s :=
    fun h => ⟨h.1, h.2.1, h.2.2.1, h.2.2.2.1, h.2.2.2.2⟩
  intro kv hkv
  simp only [sampleHeader, List.mem_cons, List.not_mem_nil, or_false] at hkv
  rcases hkv with rfl | rfl | rfl | rfl | rfl | rfl
  · exact good (by decide +kernel)
  · exact good (by decide +kernel)
  · unfold GoodLines
    dsimp only
    rw [if_pos (by decide +kernel)]
    have h : ∀ c ∈ chunks64 (List.replicate 70 'x' ++ "a:b c".toList).length
        (List.replicate 70 'x' ++ "a:b c".toList), ((∀ c' ∈ c, c'.toNat < 256) ∧ '\r' ∉ c ∧
        '\n' ∉ c ∧ ¬ [':', ' '] <:+: c ∧ ∀ c' ∈ c.getLast?, isSpace c' = false) := by
      decide +kernel
    exact fun c hc => good (h c hc)
  · exact good (by decide +kernel)
  · exact good (by decide +kernel)
  · exact good (by decide +kernel)

theorem sample_typed : ∀ kv ∈ sampleHeader, Typed parseNat decChars sampleTable kv.1 kv.2 := by
  have str : ∀ {k s : Text} {c : Text} {b : Option Text}, cleanPar k = .ok c →
      getKw c sampleTable = some ⟨false, b⟩ → Typed parseNat decChars sampleTable k (.str s) := by
    intro k s c b h1 h2
    refine .inr fun c' kw h3 h4 => ?_
    rw [h1] at h3
    cases h3
    rw [h2] at h4
    cases h4
    rfl
  intro kv hkv
  simp only [sampleHeader, List.mem_cons, List.not_mem_nil, or_false] at hkv
  rcases hkv with rfl | rfl | rfl | rfl | rfl | rfl
  · exact str (c := kFORMAT) (b := none) (by decide +kernel) (by decide +kernel)
  · exact str (c := kVERSION) (b := none) (by decide +kernel) (by decide +kernel)
  · exact str (c := kTITLE) (b := some "General.title".toList) (by decide +kernel)
      (by decide +kernel)
  · exact .inl rfl
  · exact ⟨by decide +kernel, by decide +kernel, "NPOINTS".toList, ⟨true, none⟩,
      by decide +kernel, by decide +kernel, rfl⟩
  · exact ⟨by decide +kernel, by decide +kernel, "BEAMKV".toList,
      ⟨true, some "Acquisition_instrument.TEM.beam_energy".toList⟩,
      by decide +kernel, by decide +kernel, rfl⟩

/-- It meets the hypotheses of the theorem. -/
example (body : Text) : parseMsa parseNat sampleTable (msaText decChars sampleHeader body) =
    .ok sampleHeader :=
  C25_header_partial body (by decide +kernel) (by decide +kernel) sample_keys sample_lines
    sample_typed

/-- The round trip of a single extra entry. -/
def roundTrip (k : Text) (v : Val Nat) : Py (Option (Val Nat)) :=
  (parseMsa parseNat sampleTable (msaText decChars
    [(kFORMAT, .str formatText), (k, v)] [])).map (getKw k)

/-- A colon followed by a space: the keyword is lost. -/
theorem C25_fails_colon : roundTrip kTITLE (.str "Spectrum: core loss".toList) = .ok none := by
  decide +kernel

/-- With two dashes after it, the whole file can no longer be read. -/
theorem C25_fails_colon_dashes :
    roundTrip kTITLE (.str "Spectrum: Fe-L-edge".toList) = .error .valueError := by
  decide +kernel

/-- Long titles are cut into pieces of 64 characters, and a space at the end of a piece is lost. -/
theorem C25_fails_space_at_64 :
    roundTrip kTITLE (.str (List.replicate 63 'a' ++ [' ', 'b'])) =
      .ok (some (.str (List.replicate 63 'a' ++ ['b']))) := by
  decide +kernel

/-- Characters outside Latin-1 are dropped. -/
theorem C25_fails_non_latin :
    roundTrip kTITLE (.str ['K', 'α']) = .ok (some (.str ['K'])) := by
  decide +kernel

/-- `None` comes back as text. -/
theorem C25_fails_none : roundTrip "XUNITS".toList .none = .ok (some (.str "None".toList)) := by
  decide +kernel

/-- A number under a keyword that is not in the table comes back as text. -/
theorem C25_fails_unknown_number :
    roundTrip "MYVALUE".toList (.num 12) = .ok (some (.str "12".toList)) := by
  decide +kernel

theorem getKw_addMapped (md : List (Text × Val F)) (k : Text) : ∀ (tbl : Table)
    (kwds : List (Text × Val F)), (tbl.map Prod.fst).Nodup →
    getKw k (addMapped md tbl kwds) =
      match (getKw k tbl).bind (fun e => e.mapped.bind fun path => getKw path md) with
      | some v => some v
      | none => getKw k kwds
  | [], _, _ => rfl
  | (k', e) :: tbl, kwds, hnd => by
    simp only [List.map_cons, List.nodup_cons] at hnd
    have ih := fun kwds => getKw_addMapped md k tbl kwds hnd.2
    unfold addMapped at ih ⊢
    rw [List.foldl_cons, ih]
    by_cases hk : k' = k
    · subst hk
      rw [getKw_none hnd.1, getKw, if_pos rfl]
      dsimp only [Option.bind]
      cases e.mapped with
      | none => rfl
      | some path =>
        dsimp only
        cases getKw path md with
        | none => rfl
        | some v => simp [getKw_setKw]
    · rw [getKw, if_neg hk]
      cases (getKw k tbl).bind fun e => e.mapped.bind fun path => getKw path md with
      | some v => rfl
      | none =>
        dsimp only
        cases e.mapped with
        | none => rfl
        | some path =>
          dsimp only
          cases getKw path md with
          | none => rfl
          | some v => simp [getKw_setKw, Ne.symm hk]

theorem getKw_delKw {α : Type} {k k' : Text} (h : k ≠ k') : ∀ d : List (Text × α),
    getKw k (delKw k' d) = getKw k d
  | [] => rfl
  | (a, v) :: d => by
    have ih := getKw_delKw h d
    unfold delKw at ih ⊢
    rw [List.filter_cons]
    by_cases ha : a = k'
    · subst ha
      simp only [ne_eq, not_true_eq_false, decide_false, Bool.false_eq_true, if_false]
      rw [ih, getKw, if_neg (Ne.symm h)]
    · rw [if_pos (by simpa using ha), getKw, getKw, ih]

/-- C25: a metadata item of a signal (not of an SEM type) that has a keyword is written under this
keyword. -/
theorem C25_metadata [DecidableEq F] (one : F) (comment : Text) (tbl : Table) (sig : Signal F)
    (format : Option Text) (hnd : (tbl.map Prod.fst).Nodup) (hsem : hasSEM sig.signalType = false)
    {k path : Text} {e : Kw} {v : Val F} (hk : (k, e) ∈ tbl) (hm : e.mapped = some path)
    (hv : getKw path sig.md = some v) (h1 : k ≠ kSPECTRUM) (h2 : k ≠ kENDOFDATA) :
    getKw k (localKeywords one comment tbl sig format) = some v := by
  unfold localKeywords
  dsimp only
  rw [getKw_delKw h2, getKw_delKw h1]
  have ht : updateTable sig.signalType tbl = tbl := by simp [updateTable, hsem]
  rw [ht, getKw_addMapped _ _ _ _ hnd, getKw_mem hnd hk]
  simp [hm, hv]

/-- The live time of a spectrum. -/
example : getKw "LIVETIME".toList (localKeywords 1 []
    [("LIVETIME".toList, ⟨true, some "Acquisition.live_time".toList⟩)]
    { (⟨[], "EELS".toList, .num 3, .num 1, .num 0, .str [], .str [], none, []⟩ : Signal Nat) with
      md := [("Acquisition.live_time".toList, .num 7)] } none) = some (.num 7) := by decide +kernel

/-! ### C26 -/

/-- C26, partial: writing a signal that does not come from an .msa file and is not of an SEM type
changes neither the signal nor the global table of keywords. Missing: the other signals, see
`C26_fails_second_write` and `C26_fails_after_sem`. -/
theorem C26_write_pure_partial [DecidableEq F] (showF : F → Text) (one : F) (comment : Text)
    (tbl : Table) (sig : Signal F) (format : Option Text) (body : Text)
    (hom : getKw kFORMAT sig.om ≠ some (.str formatText)) (hsem : hasSEM sig.signalType = false) :
    (writeMsa showF one comment tbl sig format body).om = sig.om ∧
      (writeMsa showF one comment tbl sig format body).tbl = tbl := by
  have h1 : fromMsa sig = false := by simpa [fromMsa] using hom
  simp [writeMsa, h1, updateTable, hsem]

/-- A sequence of writes; the table of keywords is passed on. -/
def writeSeq [DecidableEq F] (showF : F → Text) (one : F) (comment : Text) :
    Table → List (Signal F × Option Text × Text) → List (Py Text)
  | _, [] => []
  | tbl, (sig, format, body) :: ws =>
    let w := writeMsa showF one comment tbl sig format body
    w.file :: writeSeq showF one comment w.tbl ws

/-- C26, partial: in a sequence of writes without SEM signals every file is the one that a
fresh process would write. -/
theorem C26_sequence_partial [DecidableEq F] (showF : F → Text) (one : F) (comment : Text)
    (tbl : Table) : ∀ ws : List (Signal F × Option Text × Text),
    (∀ w ∈ ws, hasSEM w.1.signalType = false) →
    writeSeq showF one comment tbl ws =
      ws.map fun w => (writeMsa showF one comment tbl w.1 w.2.1 w.2.2).file
  | [], _ => rfl
  | (sig, format, body) :: ws, h => by
    have hs := h _ (List.mem_cons_self ..)
    dsimp only at hs
    have ht : (writeMsa showF one comment tbl sig format body).tbl = tbl := by
      simp [writeMsa, updateTable, hs]
    simp only [writeSeq, ht, List.map_cons]
    rw [C26_sequence_partial showF one comment tbl ws
      (fun w hw => h w (List.mem_cons_of_mem _ hw))]

/-- A signal read from an .msa file, and one of SEM type. -/
def msaSignal : Signal Nat :=
  ⟨[], "EELS".toList, .num 3, .num 1, .num 0, .str "E".toList, .str "eV".toList, none,
    [(kFORMAT, .str formatText), ("OWNER".toList, .str "me".toList)]⟩

def plainSignal : Signal Nat := { msaSignal with om := [] }

def semSignal : Signal Nat := { plainSignal with signalType := "EDS_SEM".toList }

/-- Signals that the positive theorems speak about. -/
example : getKw kFORMAT plainSignal.om ≠ some (.str formatText) ∧
    hasSEM plainSignal.signalType = false := by decide +kernel

/-- The same signal, after a first write. -/
def msaSignalAfter : Signal Nat :=
  { msaSignal with om := (writeMsa decChars 1 [] sampleTable msaSignal none []).om }

/-- Writing a signal that comes from an .msa file removes entries from its original metadata, and
writing it a second time gives a file without its owner. -/
theorem C26_fails_second_write :
    getKw kFORMAT msaSignalAfter.om = none ∧
    ((writeMsa decChars 1 [] sampleTable msaSignal (some ['Y']) []).file >>=
      fun t => (parseMsa parseNat sampleTable t).map (getKw "OWNER".toList)) =
        .ok (some (.str "me".toList)) ∧
    ((writeMsa decChars 1 [] sampleTable
        { msaSignal with om := (writeMsa decChars 1 [] sampleTable msaSignal (some ['Y']) []).om }
        (some ['Y']) []).file >>=
      fun t => (parseMsa parseNat sampleTable t).map (getKw "OWNER".toList)) =
        .ok (some (.str [])) := by
  decide +kernel

/-- After an SEM signal has been written, the beam energy of any file is put under `SEM`. -/
theorem C26_fails_after_sem :
    mappedItems sampleTable [("BEAMKV".toList, Val.num 200)] =
      [("Acquisition_instrument.TEM.beam_energy".toList, .num 200)] ∧
    mappedItems (writeMsa decChars 1 [] sampleTable semSignal none []).tbl
        [("BEAMKV".toList, Val.num 200)] =
      [("Acquisition_instrument.SEM.beam_energy".toList, .num 200)] := by
  decide +kernel

end Verif.Props.Msa
