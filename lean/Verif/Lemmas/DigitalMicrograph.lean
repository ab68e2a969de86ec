import Verif.Spec.DigitalMicrograph
/-! Reading back what the encoder of DM tag trees writes. -/
namespace Verif.DM

theorem known_some {t : Nat} (h : known t) : simpleSize t = some (widthOf t) := by
  simp only [known, widths, List.map_cons, List.map_nil, List.mem_cons, List.not_mem_nil,
    or_false] at h
  rcases h with h | h | h | h | h | h | h | h | h | h | h <;> subst h <;> rfl

theorem known_isSome {t : Nat} (h : known t) : (simpleSize t).isSome := by
  rw [known_some h]; rfl

theorem widthOf_eq {t w : Nat} (h : simpleSize t = some w) : widthOf t = w := by
  unfold simpleSize at h
  split at h <;> first | (cases h; rfl) | cases h

theorem shownName_eq (bs : List UInt8) : noDots (nameOf bs) = shownName bs := by
  unfold noDots nameOf shownName
  induction bs with
  | nil => rfl
  | cons b bs ih =>
    have hb : (Char.ofNat b.toNat ≠ '.') ↔ b ≠ 46 := by
      have hlt := b.toNat_lt
      have hv : b.toNat.isValidChar := Or.inl (by omega)
      have ht : (Char.ofNat b.toNat).toNat = b.toNat := by
        simp [Char.ofNat, hv, Char.ofNatAux, Char.toNat]
      constructor
      · intro h e
        subst e
        exact h rfl
      · intro h e
        apply h
        rw [e] at ht
        apply UInt8.toNat_inj.1
        rw [← ht]
        rfl
    by_cases h : b = 46
    · have : ¬ Char.ofNat b.toNat ≠ '.' := fun e => hb.1 e h
      simp only [List.map_cons]
      rw [List.filter_cons_of_neg (by simpa using this), List.filter_cons_of_neg (by simp [h])]
      exact ih
    · have h2 : Char.ofNat b.toNat ≠ '.' := hb.2 h
      simp only [List.map_cons]
      rw [List.filter_cons_of_pos (by simpa using h2), List.filter_cons_of_pos (by simp [h]),
        List.map_cons, ih]

theorem dataName_eq (k : Nat) : dataName k = numberedData k := rfl
theorem groupName_eq (k : Nat) : groupName k = numberedGroup k := rfl
theorem isImage_eq (g n : Text) : isImageData g n = isImage g n := rfl

theorem readU_enc (big : Bool) {w v : Nat} (h : v < 256 ^ w) (r : List UInt8) :
    readU big w (fieldBytes big w v ++ r) = .ok (v, r) := by
  have hl : (fieldBytes big w v).length = w := by simp
  have : ¬ (fieldBytes big w v ++ r).length < w := by
    rw [List.length_append, hl]; omega
  rw [readU, if_neg this, List.take_left' hl, List.drop_left' hl, fieldVal_fieldBytes big w v h]

theorem readU_be {w v : Nat} (h : v < 256 ^ w) (r : List UInt8) :
    readU true w (beBytes w v ++ r) = .ok (v, r) := by
  have := readU_enc true h r
  simpa [fieldBytes] using this

theorem lsize_pos (c : Cfg) : 2 ^ 32 ≤ 256 ^ lsize c := by
  unfold lsize; split <;> decide

theorem readL_enc (c : Cfg) {n : Nat} (h : n < 2 ^ 31) (r : List UInt8) :
    readL c (encL c n ++ r) = .ok (n, r) := by
  have hp := lsize_pos c
  have h2 : n < 256 ^ lsize c := by omega
  have h3 : encL c n = beBytes (lsize c) n := rfl
  unfold readL
  rw [h3, readU_be h2]
  simp only
  rw [if_pos (by omega)]

theorem readStr_enc {n : Nat} {s : List UInt8} (h : s.length = n) (r : List UInt8) :
    readStr n (s ++ r) = .ok (s, r) := by
  have : ¬ (s ++ r).length < n := by rw [List.length_append]; omega
  rw [readStr, if_neg this, List.take_left' h, List.drop_left' h]

theorem readMany_enc (big : Bool) (w : Nat) : ∀ (vs : List Nat) (r : List UInt8),
    (∀ v ∈ vs, v < 256 ^ w) →
    readMany big w vs.length (encVals big w vs ++ r) = .ok (vs, r)
  | [], r, _ => rfl
  | v :: vs, r, h => by
    rw [List.forall_mem_cons] at h
    have e : encVals big w (v :: vs) ++ r = fieldBytes big w v ++ (encVals big w vs ++ r) := by
      simp [encVals]
    rw [e, List.length_cons, readMany, readU_enc big h.1]
    simp only
    rw [readMany_enc big w vs r h.2]

theorem encVals_length (big : Bool) (w : Nat) : ∀ vs : List Nat,
    (encVals big w vs).length = w * vs.length
  | [] => rfl
  | v :: vs => by
    have := encVals_length big w vs
    simp only [encVals, List.flatMap_cons, List.length_append, fieldBytes_length,
      List.length_cons] at this ⊢
    rw [this, Nat.mul_succ, Nat.add_comm]

/-- Types of structs are small numbers. -/
theorem simple_small {t : Nat} (h : (simpleSize t).isSome) : t < 2 ^ 31 := by
  unfold simpleSize at h
  split at h <;> simp_all

theorem readTypes_enc (c : Cfg) : ∀ (ts : List Nat) (r : List UInt8), (∀ t ∈ ts, t < 2 ^ 31) →
    readTypes c ts.length (encTypes c ts ++ r) = .ok (ts, r)
  | [], r, _ => rfl
  | t :: ts, r, h => by
    rw [List.forall_mem_cons] at h
    have e : encTypes c (t :: ts) ++ r = encL c 0 ++ (encL c t ++ (encTypes c ts ++ r)) := by
      simp [encTypes]
    rw [e, List.length_cons, readTypes, readL_enc c (by decide)]
    simp only
    rw [readL_enc c h.1]
    simp only
    rw [readTypes_enc c ts r h.2]

theorem readStructDef_enc (c : Cfg) (ts : List Nat) (r : List UInt8) (hl : ts.length < 2 ^ 31)
    (h : ∀ t ∈ ts, t < 2 ^ 31) : readStructDef c (encDef c ts ++ r) = .ok (ts, r) := by
  have e : encDef c ts ++ r = encL c 0 ++ (encL c ts.length ++ (encTypes c ts ++ r)) := by
    simp [encDef]
  rw [e, readStructDef, readL_enc c (by decide)]
  simp only
  rw [readL_enc c hl]
  exact readTypes_enc c ts r h

theorem readFields_enc (big : Bool) : ∀ (ts vs : List Nat) (r : List UInt8),
    (∀ t ∈ ts, (simpleSize t).isSome) → List.Forall₂ (fun t v => v < 256 ^ widthOf t) ts vs →
    readFields big ts (encFields big ts vs ++ r) = .ok (vs, r)
  | [], _, r, _, .nil => rfl
  | t :: ts, v :: vs, r, h, .cons hv hr => by
    rw [List.forall_mem_cons] at h
    obtain ⟨w, hw⟩ := Option.isSome_iff_exists.1 h.1
    have hww : widthOf t = w := widthOf_eq hw
    rw [hww] at hv
    rw [encFields, readFields, hw, List.append_assoc, hww]
    simp only
    rw [readU_enc big hv]
    simp only
    rw [readFields_enc big ts vs r h.2 hr]

theorem structSize_enc (big : Bool) : ∀ (ts vs : List Nat),
    (∀ t ∈ ts, (simpleSize t).isSome) → ts.length = vs.length →
    structSize ts = some (encFields big ts vs).length
  | [], [], _, _ => rfl
  | t :: ts, v :: vs, h, hl => by
    rw [List.forall_mem_cons] at h
    obtain ⟨w, hw⟩ := Option.isSome_iff_exists.1 h.1
    have hww : widthOf t = w := widthOf_eq hw
    rw [structSize, hw, structSize_enc big ts vs h.2 (by simpa using hl), encFields,
      List.length_append, fieldBytes_length, hww]
  | [], _ :: _, _, hl => by simp at hl
  | _ :: _, [], _, hl => by simp at hl

theorem structSize_some : ∀ (ts : List Nat), (∀ t ∈ ts, (simpleSize t).isSome) →
    ∃ w, structSize ts = some w
  | [], _ => ⟨0, rfl⟩
  | t :: ts, h => by
    rw [List.forall_mem_cons] at h
    obtain ⟨w, hw⟩ := Option.isSome_iff_exists.1 h.1
    obtain ⟨w', hw'⟩ := structSize_some ts h.2
    exact ⟨w + w', by rw [structSize, hw, hw']⟩

theorem forall₂_length {α β : Type} {R : α → β → Prop} : ∀ {a : List α} {b : List β},
    List.Forall₂ R a b → a.length = b.length
  | _, _, .nil => rfl
  | _, _, .cons _ t => by rw [List.length_cons, List.length_cons, forall₂_length t]

theorem rows_length (big : Bool) (ts : List Nat) (w : Nat) (hw : structSize ts = some w)
    (h : ∀ t ∈ ts, (simpleSize t).isSome) : ∀ rows : List (List Nat),
    (∀ r ∈ rows, List.Forall₂ (fun t v => v < 256 ^ widthOf t) ts r) →
    (rows.flatMap (encFields big ts)).length = w * rows.length
  | [], _ => rfl
  | r :: rows, hr => by
    rw [List.forall_mem_cons] at hr
    have h1 := structSize_enc big ts r h (forall₂_length hr.1)
    rw [hw] at h1
    rw [List.flatMap_cons, List.length_append, rows_length big ts w hw h rows hr.2,
      ← Option.some.inj h1, List.length_cons, Nat.mul_succ, Nat.add_comm]

theorem readRows_enc (big : Bool) (ts : List Nat) (h : ∀ t ∈ ts, (simpleSize t).isSome) :
    ∀ (rows : List (List Nat)) (r : List UInt8),
    (∀ r ∈ rows, List.Forall₂ (fun t v => v < 256 ^ widthOf t) ts r) →
    readRows big ts rows.length (rows.flatMap (encFields big ts) ++ r) = .ok (rows, r)
  | [], r, _ => rfl
  | v :: rows, r, hr => by
    rw [List.forall_mem_cons] at hr
    rw [List.flatMap_cons, List.append_assoc, List.length_cons, readRows,
      readFields_enc big ts v _ h hr.1]
    simp only
    rw [readRows_enc big ts h rows r hr.2]

theorem readStrs_enc (n : Nat) : ∀ (ss : List (List UInt8)) (r : List UInt8),
    (∀ s ∈ ss, s.length = n) → readStrs n ss.length (ss.flatten ++ r) = .ok (ss, r)
  | [], r, _ => rfl
  | s :: ss, r, h => by
    rw [List.forall_mem_cons] at h
    rw [List.flatten_cons, List.append_assoc, List.length_cons, readStrs, readStr_enc h.1]
    simp only
    rw [readStrs_enc n ss r h.2]

/-- Values whose skipping is right: not strings. -/
def Data.skippable : Data → Prop
  | .str _ => False
  | .strs _ => False
  | _ => True

theorem tell_append (n : Nat) (a r : List UInt8) : tell n (a ++ r) = n - (a.length + r.length) := by
  rw [tell, List.length_append]

theorem readData_head (c : Cfg) (n : Nat) (skip : Bool) (prev : Option Data) (k enc : Nat)
    (hk : k < 2 ^ 31) (henc : enc < 2 ^ 31) (r : List UInt8) :
    readData c n skip prev (List.replicate (if c.v4 then 8 else 0) 0 ++ ([37, 37, 37, 37] ++
      (encL c k ++ (encL c enc ++ r)))) =
    if k = 0 then .error .ioError
    else if k = 1 then
      match simpleSize enc with
      | none => .error .keyError
      | some w => match readU c.big w r with
        | .error e => .error e
        | .ok (v, r) => .ok (.simple enc v, r)
    else if k = 2 then
      if enc ≠ 18 then .error .ioError
      else match readL c r with
        | .error e => .error e
        | .ok (len, r) => readString n skip len r
    else if k = 3 then
      if enc ≠ 20 then .error .ioError
      else match readL c r with
        | .error e => .error e
        | .ok (etype, r) => match readL c r with
          | .error e => .error e
          | .ok (size, r) => readArray c n skip size etype r
    else if enc = 15 then
      match readStructDef c r with
      | .error e => .error e
      | .ok (ts, r) => readStruct c n skip ts r
    else if enc = 20 then readComplexArray c n skip prev r
    else match prev with
      | none => .error .nameError
      | some d => .ok (d, r) := by
  unfold readData
  rw [List.drop_left' (List.length_replicate ..), readStr_enc (n := 4) rfl]
  simp only
  rw [if_neg (by simp), readL_enc c hk]
  simp only
  by_cases h0 : k = 0
  · simp [h0]
  · rw [if_neg h0, if_neg h0, readL_enc c henc]
    rfl

/-- Reading a data tag. -/
theorem readData_enc (c : Cfg) (n : Nat) (skip : Bool) (prev : Option Data) (d : Data)
    (hd : d.ok) (hs : skip = true → d.skippable) (r : List UInt8) :
    readData c n skip prev (encData c d ++ r) = .ok (described c n r.length skip d, r) := by
  have ea : encData c d ++ r = List.replicate (if c.v4 then 8 else 0) 0 ++ ([37, 37, 37, 37] ++
      (info c d ++ (payload c d ++ r))) := by
    simp only [encData, List.append_assoc]
  rw [ea]
  cases d with
  | simple t v =>
    obtain ⟨w, hw⟩ := Option.isSome_iff_exists.1 (known_isSome hd.1)
    have hww : widthOf t = w := widthOf_eq hw
    have hv : v < 256 ^ w := hww ▸ hd.2
    have e : info c (.simple t v) ++ (payload c (.simple t v) ++ r) =
        encL c 1 ++ (encL c t ++ (fieldBytes c.big w v ++ r)) := by
      simp [info, payload, hww]
    rw [e, readData_head c n skip prev 1 t (by decide) (simple_small (known_isSome hd.1)), if_neg (by decide),
      if_pos rfl, hw]
    simp only
    rw [readU_enc c.big hv]
    cases skip <;> rfl
  | str bs =>
    have e : info c (.str bs) ++ (payload c (.str bs) ++ r) =
        encL c 2 ++ (encL c 18 ++ (encL c bs.length ++ (bs ++ r))) := by
      simp [info, payload]
    rw [e, readData_head c n skip prev 2 18 (by decide) (by decide), if_neg (by decide),
      if_neg (by decide), if_pos rfl, if_neg (by simp), readL_enc c hd]
    simp only
    cases skip with
    | true => exact (hs rfl).elim
    | false =>
      rw [readString, if_neg (by simp), readStr_enc rfl]
      rfl
  | arr t vs =>
    obtain ⟨w, hw⟩ := Option.isSome_iff_exists.1 (known_isSome hd.1)
    have hww : widthOf t = w := widthOf_eq hw
    have hv : ∀ v ∈ vs, v < 256 ^ w := hww ▸ hd.2.1
    have e : info c (.arr t vs) ++ (payload c (.arr t vs) ++ r) =
        encL c 3 ++ (encL c 20 ++ (encL c t ++ (encL c vs.length ++
          (encVals c.big w vs ++ r)))) := by
      simp [info, payload, hww]
    rw [e, readData_head c n skip prev 3 20 (by decide) (by decide), if_neg (by decide),
      if_neg (by decide), if_neg (by decide), if_pos rfl, if_neg (by simp),
      readL_enc c (simple_small (known_isSome hd.1))]
    simp only
    rw [readL_enc c hd.2.2]
    simp only
    rw [readArray, hw]
    simp only
    cases skip with
    | true =>
      rw [if_pos rfl, ← encVals_length c.big w vs, List.drop_left' rfl, tell_append]
      simp [described, payload, hww]
    | false =>
      rw [if_neg (by simp), readMany_enc c.big w vs r hv]
      rfl
  | struct fs =>
    have ht : ∀ t ∈ fs.map Prod.fst, (simpleSize t).isSome := by
      intro t h
      obtain ⟨f, hf, rfl⟩ := List.mem_map.1 h
      exact known_isSome (hd.2.2 f hf).1
    have hl := hd.2.1
    have hne : 0 < fs.length := List.length_pos_iff.2 hd.1
    have e : info c (.struct fs) ++ (payload c (.struct fs) ++ r) =
        encL c (3 + 2 * fs.length) ++ (encL c 15 ++ (encDef c (fs.map Prod.fst) ++
          (encFields c.big (fs.map Prod.fst) (fs.map Prod.snd) ++ r))) := by
      simp [info, payload]
    rw [e, readData_head c n skip prev (3 + 2 * fs.length) 15 (by omega) (by decide),
      if_neg (by omega), if_neg (by omega), if_neg (by omega), if_neg (by omega), if_pos rfl,
      readStructDef_enc c _ _ (by rw [List.length_map]; omega) (fun t h => simple_small (ht t h))]
    simp only
    rw [readStruct]
    cases skip with
    | true =>
      rw [if_pos rfl, structSize_enc c.big _ (fs.map Prod.snd) ht (by simp)]
      simp only
      rw [List.drop_left' rfl, tell_append]
      simp [described, payload]
    | false =>
      have hv : List.Forall₂ (fun t v => v < 256 ^ widthOf t) (fs.map Prod.fst)
          (fs.map Prod.snd) := by
        have h3 := hd.2.2
        clear * - h3
        induction fs with
        | nil => exact .nil
        | cons f fs ih =>
          rw [List.forall_mem_cons] at h3
          exact .cons h3.1.2 (ih h3.2)
      rw [if_neg (by simp), readFields_enc c.big _ _ r ht hv]
      have hz : ∀ l : List (Nat × Nat), (l.map Prod.fst).zip (l.map Prod.snd) = l := by
        intro l
        induction l with
        | nil => rfl
        | cons a l ih => simp [ih]
      simp [described, hz]
  | structs ts rows =>
    obtain ⟨hl, hr, ht', hv⟩ := hd
    have ht : ∀ t ∈ ts, (simpleSize t).isSome := fun t h => known_isSome (ht' t h)
    obtain ⟨w, hw⟩ := structSize_some ts ht
    have e : info c (.structs ts rows) ++ (payload c (.structs ts rows) ++ r) =
        encL c (5 + 2 * ts.length) ++ (encL c 20 ++ (encL c 15 ++ (encDef c ts ++
          (encL c rows.length ++ (rows.flatMap (encFields c.big ts) ++ r))))) := by
      simp [info, payload]
    rw [e, readData_head c n skip prev (5 + 2 * ts.length) 20 (by omega) (by decide),
      if_neg (by omega), if_neg (by omega), if_neg (by omega), if_neg (by omega),
      if_neg (by decide), if_pos rfl, readComplexArray, readL_enc c (by decide)]
    simp only
    rw [if_pos trivial, readStructDef_enc c _ _ (by omega) (fun t h => simple_small (ht t h))]
    simp only
    rw [readL_enc c hr]
    simp only
    rw [readStructArray]
    cases skip with
    | true =>
      rw [if_pos rfl, hw]
      simp only
      rw [← rows_length c.big ts w hw ht rows hv, List.drop_left' rfl, tell_append]
      simp [described, payload]
    | false =>
      rw [if_neg (by simp), readRows_enc c.big ts ht rows r hv]
      rfl
  | strs ss =>
    obtain ⟨hl, hh, hv⟩ := hd
    have e : info c (.strs ss) ++ (payload c (.strs ss) ++ r) =
        encL c 4 ++ (encL c 20 ++ (encL c 18 ++ (encL c (ss.headD []).length ++
          (encL c ss.length ++ (ss.flatten ++ r))))) := by
      simp [info, payload]
    rw [e, readData_head c n skip prev 4 20 (by decide) (by decide),
      if_neg (by decide), if_neg (by decide), if_neg (by decide), if_neg (by decide),
      if_neg (by decide), if_pos rfl, readComplexArray, readL_enc c (by decide)]
    simp only
    rw [if_neg (by decide), if_pos trivial, readL_enc c hh]
    simp only
    rw [readL_enc c hl]
    simp only
    rw [readStringArray]
    cases skip with
    | true => exact (hs rfl).elim
    | false =>
      rw [if_neg (by simp), readStrs_enc _ ss r hv]
      rfl
  | skipped => exact hd.elim

theorem readTagHeader_enc (id : UInt8) (name r : List UInt8) (h : name.length < 2 ^ 15) :
    readTagHeader (encHeader id name ++ r) = .ok ((id.toNat, nameOf name), r) := by
  have e : encHeader id name ++ r = beBytes 1 id.toNat ++ (beBytes 2 name.length ++ (name ++ r)) := by
    have : beBytes 1 id.toNat = [id] := by
      simp [beBytes, leBytes]
    rw [this]
    simp [encHeader]
  rw [e, readTagHeader, readU_be (by have := id.toNat_lt; show _ < 256; omega)]
  simp only
  rw [readU_be (by show _ < 65536; omega)]
  simp only
  rw [if_pos (by omega), readStr_enc rfl]

theorem readGroupHeader_enc (c : Cfg) (size : Bool) (k : Nat) (r : List UInt8) (h : k < 2 ^ 31) :
    readGroupHeader c size (encGroupHeader c size k ++ r) = .ok (k, r) := by
  have hb : [1, 0] = beBytes 2 256 := by decide
  rw [encGroupHeader, hb]
  cases hs : (c.v4 && size) with
  | true =>
    rw [if_pos rfl, List.append_assoc, List.append_assoc, readGroupHeader, readU_be (by decide)]
    simp only
    rw [hs, if_pos rfl, readL_enc c (by decide)]
    simp only
    rw [readL_enc c h]
  | false =>
    rw [if_neg (by simp), List.append_nil, List.append_assoc, readGroupHeader,
      readU_be (by decide)]
    simp only
    rw [hs, if_neg (by simp), readL_enc c h]

/-- Number of tags of a tree. -/
def countTags : List Tag → Nat
  | [] => 0
  | .data _ _ :: ts => 1 + countTags ts
  | .group _ sub :: ts => 1 + countTags sub + countTags ts

theorem encHeader_pos (id : UInt8) (name : List UInt8) : 1 ≤ (encHeader id name).length := by
  simp [encHeader]

theorem countTags_le (c : Cfg) : ∀ ts : List Tag, countTags ts ≤ (encTags c ts).length
  | [] => by simp [countTags]
  | .data nm d :: ts => by
    have := countTags_le c ts
    have := encHeader_pos 21 nm
    rw [countTags, encTags, List.length_append, List.length_append]; omega
  | .group nm sub :: ts => by
    have := countTags_le c ts
    have := countTags_le c sub
    have := encHeader_pos 20 nm
    rw [countTags, encTags, List.length_append, List.length_append, List.length_append]; omega

/-- No image data are strings. -/
def imagesOk : Text → Nat → List Tag → Prop
  | _, _, [] => True
  | group, ug, .data nm d :: ts =>
    (isImage group (shownName nm) = true → d.skippable) ∧ imagesOk group ug ts
  | group, ug, .group nm sub :: ts =>
    imagesOk (if shownName nm = [] then numberedGroup ug else shownName nm) 0 sub ∧
    imagesOk group (if shownName nm = [] then ug + 1 else ug) ts

theorem readTags_enc (c : Cfg) (n : Nat) : ∀ (ts : List Tag) (fuel : Nat) (group : Text)
    (ud ug : Nat) (prev : Option Data) (d : List (Text × Node)) (r : List UInt8),
    countTags ts < fuel → tagsOk ts → imagesOk group ug ts →
    (d.map Prod.fst ++ finalNames ud ug ts).Nodup →
    readTags c n fuel ts.length group ud ug prev d (encTags c ts ++ r) =
      .ok (d ++ dictOf c n group ud ug r.length ts, r)
  | [], fuel, group, ud, ug, prev, d, r, _, _, _, _ => by
    cases fuel <;> simp [readTags, encTags, dictOf]
  | .data nm v :: ts, 0, _, _, _, _, _, _, h, _, _, _ => by simp at h
  | .group nm v :: ts, 0, _, _, _, _, _, _, h, _, _, _ => by simp at h
  | .data nm v :: ts, fuel + 1, group, ud, ug, prev, d, r, hf, hok, him, hnd => by
    rw [tagsOk] at hok
    rw [imagesOk] at him
    obtain ⟨hnm, hv, hts⟩ := hok
    have e : encTags c (.data nm v :: ts) ++ r =
        encHeader 21 nm ++ (encData c v ++ (encTags c ts ++ r)) := by
      rw [encTags]; simp only [List.append_assoc]
    rw [e, List.length_cons, readTags, readTagHeader_enc 21 nm _ hnm]
    simp only [shownName_eq, dataName_eq, groupName_eq, isImage_eq]
    rw [if_pos (by decide), readData_enc c n _ prev v hv him.1]
    simp only
    have hf' : countTags ts < fuel := by rw [countTags] at hf; omega
    have hkey : (if shownName nm = [] then numberedData ud else shownName nm) ∉
        d.map Prod.fst := by
      intro hm
      rw [List.nodup_append] at hnd
      unfold finalNames at hnd
      split at hnd
      · rename_i hz
        rw [if_pos hz] at hm
        exact hnd.2.2 _ hm _ List.mem_cons_self rfl
      · rename_i hz
        rw [if_neg hz] at hm
        exact hnd.2.2 _ hm _ List.mem_cons_self rfl
    rw [setKw_new hkey]
    have hlen : (encTags c ts ++ r).length = (encTags c ts).length + r.length :=
      List.length_append
    rw [readTags_enc c n ts fuel group _ ug _ _ r hf' hts him.2 ?_]
    · rw [hlen]
      simp [dictOf]
    · unfold finalNames at hnd
      split at hnd
      · rename_i hz
        simpa [hz] using hnd
      · rename_i hz
        simpa [hz] using hnd
  | .group nm sub :: ts, fuel + 1, group, ud, ug, prev, d, r, hf, hok, him, hnd => by
    rw [tagsOk] at hok
    rw [imagesOk] at him
    obtain ⟨hnm, hsl, hsn, hsub, hts⟩ := hok
    have e : encTags c (.group nm sub :: ts) ++ r =
        encHeader 20 nm ++ (encGroupHeader c true sub.length ++ (encTags c sub ++
          (encTags c ts ++ r))) := by
      rw [encTags]; simp only [List.append_assoc]
    rw [e, List.length_cons, readTags, readTagHeader_enc 20 nm _ hnm]
    simp only [shownName_eq, dataName_eq, groupName_eq, isImage_eq]
    rw [if_neg (by decide), if_pos (by decide), readGroupHeader_enc c true sub.length _ hsl]
    simp only
    have hf1 : countTags sub < fuel := by rw [countTags] at hf; omega
    have hf' : countTags ts < fuel := by rw [countTags] at hf; omega
    rw [readTags_enc c n sub fuel _ 0 0 none [] _ hf1 hsub him.1 (by simpa using hsn)]
    simp only
    have hkey : (if shownName nm = [] then numberedGroup ug else shownName nm) ∉
        d.map Prod.fst := by
      intro hm
      rw [List.nodup_append] at hnd
      unfold finalNames at hnd
      split at hnd
      · rename_i hz
        rw [if_pos hz] at hm
        exact hnd.2.2 _ hm _ List.mem_cons_self rfl
      · rename_i hz
        rw [if_neg hz] at hm
        exact hnd.2.2 _ hm _ List.mem_cons_self rfl
    rw [setKw_new hkey]
    have hlen : (encTags c ts ++ r).length = (encTags c ts).length + r.length :=
      List.length_append
    rw [readTags_enc c n ts fuel group ud _ prev _ r hf' hts him.2 ?_]
    · rw [hlen]
      simp [dictOf]
    · unfold finalNames at hnd
      split at hnd
      · rename_i hz
        simpa [hz] using hnd
      · rename_i hz
        simpa [hz] using hnd

end Verif.DM
