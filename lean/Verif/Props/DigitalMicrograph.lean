import Verif.Lemmas.DigitalMicrograph
/-! C40, C41: DM tag trees. -/
namespace Verif.Props.DigitalMicrograph
open Verif Verif.DM

/-- C40: for every tree of tags in either version and byte order, whatever follows it, the parser
returns every tag under its name with its value, in order, and stops at the end of the tree.
Missing for the full statement: names that become equal (`C40_fails_names`), arrays of arrays
(`C40_fails_arrays`) and image data that are strings (see `C41`). -/
theorem C40_tree_partial (c : Cfg) (size : Nat) (ts : List Tag) (rest : List UInt8)
    (hsize : size < 2 ^ 31) (hl : ts.length < 2 ^ 31) (hok : tagsOk ts)
    (him : imagesOk "root".toList 0 ts)
    (hn : ("root".toList :: finalNames 0 0 ts).Nodup) :
    readFile (encFile c size ts ++ rest) =
      .ok (("root".toList, .group []) ::
        dictOf c (encFile c size ts ++ rest).length "root".toList 0 0 rest.length ts, rest) := by
  have hroot : "root".toList = rootName := rfl
  rw [hroot] at him hn ⊢
  have hcnt := countTags_le c ts
  have hlen : (encTags c ts).length ≤ (encFile c size ts ++ rest).length := by
    unfold encFile
    rw [List.length_append, List.length_append]
    omega
  generalize hfl : (encFile c size ts ++ rest).length = n at hlen ⊢
  unfold readFile
  rw [hfl]
  unfold encFile
  simp only [List.append_assoc]
  have hv : (if c.v4 then 4 else 3) < 256 ^ 4 := by split <;> decide
  rw [readU_be hv]
  simp only
  have h34 : ¬ ((if c.v4 then 4 else 3) ≠ 3 ∧ (if c.v4 then 4 else 3) ≠ 4) := by
    split <;> simp
  rw [if_neg h34]
  obtain ⟨v4, big⟩ := c
  have hc0 : ∀ b, (⟨decide ((if v4 then 4 else 3) = 4), b⟩ : Cfg) = ⟨v4, b⟩ := by
    intro b; cases v4 <;> rfl
  simp only [hc0]
  have he : encL ⟨v4, big⟩ size = encL ⟨v4, true⟩ size := rfl
  rw [he, readL_enc _ hsize]
  simp only
  have hb : (if big then 0 else 1) < 256 ^ 4 := by split <;> decide
  rw [readU_be hb]
  simp only
  have hbig : decide ((if big = true then 0 else 1) = 0) = big := by cases big <;> rfl
  rw [hbig, readGroupHeader_enc _ false ts.length _ hl]
  simp only
  rw [readTags_enc ⟨v4, big⟩ n ts (n + 1) rootName 0 0 none _ rest (by omega) hok him
    (by simpa using hn)]
  rfl

/-- A tree with a named and an unnamed group, values of several kinds and image data. -/
def sample : List Tag :=
  [.data [65] (.simple 3 7),
   .group [] [.data [] (.str [104, 105]), .data [] (.struct [(6, 9), (2, 65535)])],
   .group [73, 109, 97, 103, 101, 68, 97, 116, 97]
     [.data [68, 97, 116, 97] (.arr 2 [1, 2, 3]), .data [83] (.structs [2, 8] [[1, 1], [2, 0]])],
   .data [66, 46] (.strs [[97, 98], [99, 100]])]

example : tagsOk sample ∧ imagesOk "root".toList 0 sample ∧
    ("root".toList :: finalNames 0 0 sample).Nodup := by
  refine ⟨?_, ?_, ?_⟩
  · simp [sample, tagsOk, Data.ok, known, widths, finalNames, shownName, widthOf,
      List.forall_mem_cons]
    decide +kernel
  · simp [sample, imagesOk, Data.skippable]
    decide +kernel
  · simp only [sample, finalNames]
    decide +kernel

/-- The keys of a parsed file. -/
def keys (r : Py (List (Text × Node) × List UInt8)) : Option (List Text) :=
  r.toOption.map fun p => p.1.map Prod.fst

/-- C40 fails when names become equal: `A` and `A.` are one entry, the first value is lost. -/
theorem C40_fails_names : keys (readFile (encFile ⟨false, true⟩ 0
    [.data [65] (.simple 8 1), .data [65, 46] (.simple 8 0)])) =
      some ["root".toList, "A".toList] := by
  simp only [encFile, encTags]
  decide +kernel

/-- C40 fails for unnamed tags beside a tag that has the name given to them. -/
theorem C40_fails_numbered : keys (readFile (encFile ⟨true, false⟩ 0
    [.data [68, 97, 116, 97, 48] (.simple 8 1), .data [] (.simple 8 0)])) =
      some ["root".toList, "Data0".toList] := by
  simp only [encFile, encTags]
  decide +kernel

/-- A data tag with an array of arrays of type `t`: elements of `n` values. -/
def encArrays (c : Cfg) (name : List UInt8) (t n : Nat) (rows : List (List Nat)) : List UInt8 :=
  encHeader 21 name ++ List.replicate (if c.v4 then 8 else 0) 0 ++ [37, 37, 37, 37] ++ encL c 6 ++
    encL c 20 ++ encL c 20 ++ encL c t ++ encL c n ++ encL c rows.length ++
    rows.flatMap (encVals c.big (widthOf t))

/-- C40 fails for arrays of arrays: only the first values are read, and the parser goes on in the
middle of the array. Here the file, with an array of two arrays and another tag, cannot be read. -/
theorem C40_fails_arrays :
    readFile (beBytes 4 3 ++ encL ⟨false, true⟩ 0 ++ beBytes 4 0 ++
      encGroupHeader ⟨false, true⟩ false 2 ++
      (encArrays ⟨false, true⟩ [65] 2 3 [[1, 2, 3], [4, 5, 6]] ++
        encTags ⟨false, true⟩ [.data [66] (.simple 8 0)])) = .error .structError := by
  simp only [encTags]
  rfl

/-- Number of elements of a value. -/
def count : Data → Nat
  | .arr _ vs => vs.length
  | .struct fs => fs.length
  | .structs _ rows => rows.length
  | .str bs => bs.length
  | .strs ss => ss.length
  | _ => 1

/-- C41: skipping the values of a tag leaves the file where reading them does, and the description
gives their number and delimits their bytes in the file. Single values are read in either case.
Missing for the full statement: strings and arrays of strings. -/
theorem C41_skip_partial (c : Cfg) (prev : Option Data) (d : Data) (hd : d.ok) (hs : d.skippable)
    (pre rest f : List UInt8) (hf : f = pre ++ encData c d ++ rest) :
    readData c f.length false prev (encData c d ++ rest) = .ok (d, rest) ∧
    ∃ v, readData c f.length true prev (encData c d ++ rest) = .ok (v, rest) ∧
      ((∃ t x, d = .simple t x ∧ v = d) ∨
        ∃ sb off, v = .skipped (count d) sb off ∧ (f.drop off).take sb = payload c d) := by
  refine ⟨readData_enc c _ false prev d hd (by simp) rest, _,
    readData_enc c _ true prev d hd (fun _ => hs) rest, ?_⟩
  have hoff : f.length - ((payload c d).length + rest.length) =
      (pre ++ (List.replicate (if c.v4 then 8 else 0) 0 ++ [37, 37, 37, 37] ++ info c d)).length := by
    rw [hf, encData]
    simp only [List.length_append]
    omega
  have hcut : (f.drop (f.length - ((payload c d).length + rest.length))).take
      (payload c d).length = payload c d := by
    rw [hoff, hf, encData]
    have e : pre ++ (List.replicate (if c.v4 then 8 else 0) 0 ++ [37, 37, 37, 37] ++ info c d ++
        payload c d) ++ rest =
        (pre ++ (List.replicate (if c.v4 then 8 else 0) 0 ++ [37, 37, 37, 37] ++ info c d)) ++
          (payload c d ++ rest) := by
      simp only [List.append_assoc]
    rw [e, List.drop_left' rfl, List.take_left' rfl]
  cases d with
  | simple t x => exact Or.inl ⟨t, x, rfl, rfl⟩
  | str => exact hs.elim
  | strs => exact hs.elim
  | skipped => exact hd.elim
  | arr t vs => exact Or.inr ⟨_, _, rfl, hcut⟩
  | struct fs => exact Or.inr ⟨_, _, rfl, hcut⟩
  | structs ts rows => exact Or.inr ⟨_, _, rfl, hcut⟩

/-- Three shorts in a little endian DM4 file meet the hypotheses. -/
example : (Data.arr 2 [1, 2, 3]).ok ∧ (Data.arr 2 [1, 2, 3]).skippable := by
  refine ⟨⟨by simp [known, widths], ?_, by decide⟩, trivial⟩
  decide +kernel

/-- C41: in a whole file (with `C40_tree_partial`) the keys are the names of all tags, whether the
group is one whose data are skipped or not. -/
theorem C41_keys (c : Cfg) (n : Nat) : ∀ (ts : List Tag) (g : Text) (ud ug after : Nat),
    (dictOf c n g ud ug after ts).map Prod.fst = finalNames ud ug ts
  | [], _, _, _, _ => by simp [dictOf, finalNames]
  | .data nm d :: ts, g, ud, ug, after => by
    rw [dictOf, finalNames]
    split <;> simp_all [C41_keys c n ts]
  | .group nm sub :: ts, g, ud, ug, after => by
    rw [dictOf, finalNames]
    split <;> simp_all [C41_keys c n ts]

/-- C41 fails for a skipped string: the recorded number of bytes is 0. -/
theorem C41_fails_string : readData ⟨false, true⟩ 30 true none
    (encData ⟨false, true⟩ (.str [97, 98]) ++ [1]) = .ok (.skipped 2 0 27, [1]) := by
  rfl

/-- C41 fails for a skipped array of strings: only the first string is skipped. -/
theorem C41_fails_strings : readData ⟨false, true⟩ 30 true none
    (encData ⟨false, true⟩ (.strs [[97, 98], [99, 100]])) = .ok (.skipped 2 0 26, [99, 100]) ∧
    readData ⟨false, true⟩ 30 false none
      (encData ⟨false, true⟩ (.strs [[97, 98], [99, 100]])) =
        .ok (.strs [[97, 98], [99, 100]], []) := by
  constructor <;> rfl

end Verif.Props.DigitalMicrograph
