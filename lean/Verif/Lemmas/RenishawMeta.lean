import Verif.Lemmas.Renishaw
/-! Lemmas for C78: metadata of `.wdf` files. -/
namespace Verif.Lemmas.Renishaw
open Verif.Renishaw Verif.Spec.Renishaw Verif.BytesSpec

/-- The letter of an entry. -/
def letter : Node → UInt8
  | .number c _ => c
  | .array c _ => c
  | .text _ => 117
  | .binary _ => 98
  | .compressed _ => 117
  | .name _ => 107
  | .nested _ => 112

/-- The flag of an entry. -/
def flagOf : Node → UInt8
  | .array _ _ => 128
  | .compressed _ => 64
  | _ => 0

/-- The contents of an entry. -/
def payload : Node → Bytes
  | .number _ raw => raw
  | .array _ raws => leBytes 4 raws.length ++ raws.flatten
  | .text raw => leBytes 4 raw.length ++ raw
  | .binary raw => leBytes 4 raw.length ++ raw
  | .compressed raw => leBytes 4 raw.length ++ raw
  | .name raw => leBytes 4 raw.length ++ raw
  | .nested es => leBytes 4 (setBytes es).length ++ setBytes es

theorem nodeBytes_eq (id : Nat) (n : Node) : nodeBytes id n = letter n :: flagOf n :: (leBytes 2 id ++ payload n) := by
  cases n <;> simp [nodeBytes, letter, flagOf, payload, List.append_assoc]

/-- Names with their numbers. -/
def keysOf : List (Nat × Node) → List (Nat × Text)
  | [] => []
  | (id, .name raw) :: es => (id, chars raw) :: keysOf es
  | _ :: es => keysOf es

mutual
/-- The value of an entry as the code makes it. -/
def valueOf : Node → Val
  | .number c raw => scalar c raw
  | .array c raws => .many (raws.map (scalar c))
  | .text raw => .text (chars raw)
  | .binary raw => .binary raw
  | .compressed _ => .none
  | .name raw => .text (chars raw)
  | .nested es => .nested (matched (keysOf es) (valsOf es))

/-- Values with their numbers. -/
def valsOf : List (Nat × Node) → List (Nat × Val)
  | [] => []
  | (id, n) :: es => if n.isName then valsOf es else (id, valueOf n) :: valsOf es
end

theorem width_wide {c : UInt8} (h : wide c ≠ 0) : width c = some (wide c) := by
  unfold wide at h ⊢
  unfold width
  by_cases h1 : c = 99
  · simp [h1]
  by_cases h2 : c = 63
  · simp [h2]
  by_cases h3 : c = 115
  · simp [h3]
  by_cases h4 : c = 105
  · simp [h4]
  by_cases h5 : c = 119
  · simp [h5]
  by_cases h6 : c = 114
  · simp [h6]
  by_cases h7 : c = 113
  · simp [h7]
  by_cases h8 : c = 116
  · simp [h8]
  simp [h1, h2, h3, h4, h5, h6, h7, h8] at h

theorem letter_small {n : Node} (h : n.Ok) : letter n < 128 := by
  have hw : ∀ c : UInt8, wide c ≠ 0 → c < 128 := by
    intro c hc
    by_contra hn
    apply hc
    unfold wide
    have : ∀ d : UInt8, d < 128 → c ≠ d := by rintro d hd rfl; exact hn hd
    rw [if_neg (this _ (by decide)), if_neg (this _ (by decide)), if_neg (this _ (by decide)), if_neg (this _ (by decide)),
      if_neg (this _ (by decide)), if_neg (this _ (by decide)), if_neg (this _ (by decide)), if_neg (this _ (by decide))]
  cases n with
  | number c raw => exact hw c h.1
  | array c raws => exact hw c h.1
  | _ => simp [letter]

theorem letter_name {n : Node} (h : n.Ok) : letter n = 107 ↔ n.isName = true := by
  cases n with
  | number c raw =>
    have := h.1
    constructor
    · intro e
      have e : c = 107 := e
      subst e
      exact absurd (by decide : wide 107 = 0) this
    · intro e; cases e
  | array c raws =>
    have := h.1
    constructor
    · intro e
      have e : c = 107 := e
      subst e
      exact absurd (by decide : wide 107 = 0) this
    · intro e; cases e
  | name raw => exact ⟨fun _ => rfl, fun _ => rfl⟩
  | _ => simp [letter, Node.isName]

theorem number_front {w n : Nat} {rest : Bytes} (h : n < 256 ^ w) : number (leBytes w n ++ rest) 0 w = .ok n := by
  have := number_mid (A := []) (B := leBytes w n) (C := rest) (o := 0) (w := w) (by rw [leBytes_length]; omega)
  rw [List.nil_append, List.length_nil, Nat.zero_add] at this
  rw [this]
  unfold num
  rw [stored_le, List.drop_zero, List.take_of_length_le (by rw [leBytes_length]), leVal_leBytes_mod, Nat.mod_eq_of_lt h]

theorem drop_front {w n : Nat} {rest : Bytes} : (leBytes w n ++ rest).drop w = rest := by
  conv_lhs => rw [show w = (leBytes w n).length from (leBytes_length w n).symm]
  rw [leBytes_length]
  have : (leBytes w n ++ rest).drop (leBytes w n).length = rest := List.drop_left
  rwa [leBytes_length] at this

theorem flatten_length {w : Nat} : ∀ {raws : List Bytes}, (∀ r ∈ raws, r.length = w) → raws.flatten.length = raws.length * w
  | [], _ => by simp
  | r :: raws, h => by
    rw [List.flatten_cons, List.length_append, h r List.mem_cons_self, flatten_length fun x hx => h x (List.mem_cons_of_mem _ hx),
      List.length_cons, Nat.add_mul]
    omega

theorem chunk_flatten {w : Nat} {rest : Bytes} : ∀ {raws : List Bytes}, (∀ r ∈ raws, r.length = w) →
    (List.range raws.length).map (fun k => chunk (raws.flatten ++ rest) (w * k) w) = raws
  | [], _ => rfl
  | r :: raws, h => by
    have hr := h r List.mem_cons_self
    rw [List.length_cons, List.range_succ_eq_map, List.map_cons, List.map_map, List.flatten_cons]
    congr 1
    · unfold chunk
      rw [Nat.mul_zero, List.drop_zero, List.append_assoc, ← hr, List.take_left]
    · conv_rhs => rw [← chunk_flatten (rest := rest) fun x hx => h x (List.mem_cons_of_mem _ hx)]
      apply List.map_congr_left
      intro k _
      unfold chunk
      dsimp only [Function.comp]
      rw [Nat.mul_succ, Nat.add_comm, ← List.drop_drop, List.append_assoc, ← hr, List.drop_left]

theorem takeNumbers_flatten {w : Nat} {raws : List Bytes} {rest : Bytes} (h : ∀ r ∈ raws, r.length = w) :
    takeNumbers (raws.flatten ++ rest) w raws.length = (raws, rest) := by
  have hl := flatten_length h
  unfold takeNumbers
  rw [if_pos (by rw [List.length_append]; omega), chunk_flatten h, ← hl, List.drop_left]

theorem setId_new {α : Type} {k : Nat} {v : α} : ∀ {d : List (Nat × α)}, k ∉ d.map Prod.fst → setId k v d = d ++ [(k, v)]
  | [], _ => rfl
  | (k', v') :: d, h => by
    simp only [List.map_cons, List.mem_cons, not_or] at h
    rw [setId, if_neg (fun e => h.1 e.symm), setId_new h.2]
    rfl

theorem keysOf_ids : ∀ es : List (Nat × Node), (keysOf es).map Prod.fst = (es.filter fun e => e.2.isName).map Prod.fst
  | [] => rfl
  | (id, n) :: es => by
    cases n <;> simp [keysOf, Node.isName, keysOf_ids es]

theorem keysOf_names : ∀ es : List (Nat × Node), (keysOf es).map Prod.snd = (es.filter fun e => e.2.isName).map fun e => e.2.chars
  | [] => rfl
  | (id, n) :: es => by
    cases n <;> simp [keysOf, Node.isName, keysOf_names es, Node.chars]

theorem valsOf_ids : ∀ es : List (Nat × Node), (valsOf es).map Prod.fst = (es.filter fun e => !e.2.isName).map Prod.fst
  | [] => by simp [valsOf]
  | (id, n) :: es => by
    rw [valsOf]
    by_cases h : n.isName = true
    · rw [if_pos h, List.filter_cons_of_neg (by simp [h]), valsOf_ids es]
    · rw [if_neg h, List.filter_cons_of_pos (by simp [h]), List.map_cons, List.map_cons, valsOf_ids es]

theorem nodeBytes_length (id : Nat) (n : Node) : (nodeBytes id n).length = 4 + (payload n).length := by
  rw [nodeBytes_eq]; simp [leBytes_length]; omega

theorem leBytes_two (id : Nat) : leBytes 2 id = [UInt8.ofNat id, UInt8.ofNat (id / 256)] := rfl

theorem text_entry {c : UInt8} {raw rest : Bytes} {fuel : Nat} {id : Text} {un : List Text} (hc : c = 117 ∨ c = 107)
    (hl : raw.length < 2 ^ 32) (ha : ∀ x ∈ raw, x.toNat < 128) :
    readEntry (fuel + 1) 0 c id (leBytes 4 raw.length ++ raw ++ rest) un =
      .ok (.text (chars raw), ((leBytes 4 raw.length ++ raw).length : Int), un, rest) := by
  rw [readEntry, if_neg (by decide), if_neg (by decide)]
  dsimp only
  have hw : width c = none := by rcases hc with rfl | rfl <;> rfl
  have hm : isMulti c = true := by rcases hc with rfl | rfl <;> rfl
  have hc1 : c ≠ 98 := by rcases hc with rfl | rfl <;> decide
  have hc2 : c ≠ 112 := by rcases hc with rfl | rfl <;> decide
  rw [hw]
  dsimp only
  rw [if_pos hm, List.drop_zero, List.append_assoc, number_front (by norm_num at hl ⊢; exact hl)]
  dsimp only
  rw [if_neg hc1, if_neg hc2, drop_front, List.take_left, decode_ascii ha]
  dsimp only
  rw [List.drop_left]
  simp only [List.length_append, leBytes_length]
  push_cast
  congr 3
  omega

mutual
theorem node_read : ∀ (n : Node), n.Ok → ∀ (fuel : Nat) (id : Text) (rest : Bytes) (un : List Text), (payload n).length < fuel →
    ∃ un', readEntry fuel (flagOf n) (letter n) id (payload n ++ rest) un = .ok (valueOf n, ((payload n).length : Int), un', rest)
  | .number c raw, h, fuel + 1, id, rest, un, hf => by
    refine ⟨un, ?_⟩
    have hw := width_wide h.1
    dsimp only [flagOf, letter, payload]
    rw [readEntry]
    rw [if_neg (by decide), if_neg (by decide)]
    dsimp only
    rw [hw]
    dsimp only
    have ht := takeNumbers_flatten (w := wide c) (raws := [raw]) (rest := rest) (by simpa using h.2)
    rw [List.flatten_cons, List.flatten_nil, List.append_nil, List.length_singleton] at ht
    unfold readSingle
    rw [List.drop_zero, ht]
    dsimp only
    rw [if_pos rfl]
    dsimp only
    rw [valueOf, h.2]
    rfl
  | .array c raws, h, fuel + 1, id, rest, un, hf => by
    refine ⟨un, ?_⟩
    have hw := width_wide h.1
    have hl : raws.length < 256 ^ 4 := by have := h.2.2.1; norm_num at this ⊢; exact this
    dsimp only [flagOf, letter, payload]
    rw [readEntry]
    rw [if_neg (by decide), if_pos rfl, List.append_assoc, number_front hl]
    dsimp only [Except.map]
    rw [hw]
    dsimp only
    rw [drop_front]
    have ht := takeNumbers_flatten (w := wide c) (rest := rest) h.2.2.2
    unfold readSingle
    rw [ht]
    dsimp only
    rw [if_neg h.2.1]
    dsimp only
    rw [valueOf, List.length_append, leBytes_length, flatten_length h.2.2.2]
    push_cast
    rw [Int.mul_comm, Int.add_comm]
  | .text raw, h, fuel + 1, id, rest, un, hf => by
    refine ⟨un, ?_⟩
    dsimp only [flagOf, letter, payload]
    rw [text_entry (Or.inl rfl) h.1 h.2, valueOf]
  | .name raw, h, fuel + 1, id, rest, un, hf => by
    refine ⟨un, ?_⟩
    dsimp only [flagOf, letter, payload]
    rw [text_entry (Or.inr rfl) h.1 h.2, valueOf]
  | .binary raw, h, fuel + 1, id, rest, un, hf => by
    refine ⟨un, ?_⟩
    have hl : raw.length < 256 ^ 4 := by have := h; rw [Node.Ok] at this; norm_num at this ⊢; exact this
    dsimp only [flagOf, letter, payload]
    rw [readEntry]
    rw [if_neg (by decide), if_neg (by decide)]
    dsimp only
    rw [show width 98 = none from rfl]
    dsimp only
    rw [if_pos (by decide), List.drop_zero, List.append_assoc, number_front hl]
    dsimp only
    rw [if_pos rfl, drop_front, List.take_left, List.drop_left, valueOf]
    simp only [List.length_append, leBytes_length]
    push_cast
    congr 3
    omega
  | .compressed raw, h, fuel + 1, id, rest, un, hf => by
    refine ⟨un, ?_⟩
    have hl : raw.length < 256 ^ 4 := by have := h; rw [Node.Ok] at this; norm_num at this ⊢; exact this
    dsimp only [flagOf, letter, payload]
    rw [readEntry]
    rw [if_pos rfl, List.append_assoc, number_front hl]
    dsimp only
    rw [← List.drop_drop, drop_front, List.drop_left, valueOf]
    simp only [List.length_append, leBytes_length]
    push_cast
    congr 3
    omega
  | .nested es, h, fuel + 1, id, rest, un, hf => by
    rw [Node.Ok] at h
    have hl : (setBytes es).length < 256 ^ 4 := by have := h.1; norm_num at this ⊢; exact this
    have hf' : (setBytes es).length < fuel := by
      dsimp only [payload] at hf
      rw [List.length_append, leBytes_length] at hf
      omega
    obtain ⟨un', hr⟩ := set_read es h.2.2.2.2 fuel id rest [] [] un hf' (by simpa using h.2.1) (by simpa using h.2.2.1)
    refine ⟨un', ?_⟩
    dsimp only [flagOf, letter, payload]
    rw [readEntry]
    rw [if_neg (by decide), if_neg (by decide)]
    dsimp only
    rw [show width 112 = none from rfl]
    dsimp only
    rw [if_pos (by decide), List.drop_zero, List.append_assoc, number_front hl]
    dsimp only
    rw [if_neg (by decide), if_pos rfl, drop_front, hr]
    dsimp only
    rw [valueOf, List.nil_append, List.nil_append]
    simp only [List.length_append, leBytes_length]
    push_cast
    congr 3
    omega

theorem set_read : ∀ (es : List (Nat × Node)), EntriesOk es → ∀ (fuel : Nat) (id : Text) (rest : Bytes) (keys : List (Nat × Text))
    (vals : List (Nat × Val)) (un : List Text), (setBytes es).length < fuel →
    (keys.map Prod.fst ++ (es.filter fun e => e.2.isName).map Prod.fst).Nodup →
    (vals.map Prod.fst ++ (es.filter fun e => !e.2.isName).map Prod.fst).Nodup →
    ∃ un', readSet fuel ((setBytes es).length : Int) id (setBytes es ++ rest) keys vals un =
      .ok (matched (keys ++ keysOf es) (vals ++ valsOf es), un', rest)
  | [], _, fuel + 1, id, rest, keys, vals, un, hf, hk, hv => by
    refine ⟨if leftOver keys vals then note id un else un, ?_⟩
    rw [readSet.eq_def]
    dsimp only
    rw [setBytes, if_pos (by simp), keysOf, valsOf, List.append_nil, List.append_nil, List.nil_append]
  | (k, n) :: es, h, fuel + 1, id, rest, keys, vals, un, hf, hk, hv => by
    rw [EntriesOk] at h
    obtain ⟨hk16, hn, hes⟩ := h
    have hlen : (setBytes ((k, n) :: es)).length = 4 + (payload n).length + (setBytes es).length := by
      rw [setBytes, List.length_append, nodeBytes_length]
    have hid : leVal [UInt8.ofNat k, UInt8.ofNat (k / 256)] = k := by
      rw [← leBytes_two, leVal_leBytes_mod, Nat.mod_eq_of_lt (by norm_num at hk16 ⊢; exact hk16)]
    obtain ⟨un1, h1⟩ := node_read n hn fuel (id ++ '_' :: intText (((setBytes ((k, n) :: es)).length : Int) - 4)) (setBytes es ++ rest) un
      (by omega)
    have hstep : ∀ keys' vals', ((keys'.map Prod.fst ++ (es.filter fun e => e.2.isName).map Prod.fst).Nodup) →
        ((vals'.map Prod.fst ++ (es.filter fun e => !e.2.isName).map Prod.fst).Nodup) →
        ∃ un', readSet fuel (((setBytes ((k, n) :: es)).length : Int) - 4 - ((payload n).length : Int)) id (setBytes es ++ rest) keys' vals' un1 =
          .ok (matched (keys' ++ keysOf es) (vals' ++ valsOf es), un', rest) := by
      intro keys' vals' hk' hv'
      have e : (((setBytes ((k, n) :: es)).length : Int) - 4 - ((payload n).length : Int)) = ((setBytes es).length : Int) := by omega
      rw [e]
      exact set_read es hes fuel id rest keys' vals' un1 (by omega) hk' hv'
    have hb : setBytes ((k, n) :: es) ++ rest =
        letter n :: flagOf n :: UInt8.ofNat k :: UInt8.ofNat (k / 256) :: (payload n ++ (setBytes es ++ rest)) := by
      rw [setBytes, nodeBytes_eq, leBytes_two]
      simp
    rw [readSet.eq_def]
    dsimp only
    rw [if_neg (by omega), hb]
    dsimp only
    rw [if_neg (not_not.mpr (letter_small hn)), h1]
    dsimp only
    rw [hid]
    by_cases hname : n.isName = true
    · rw [if_pos ((letter_name hn).mpr hname)]
      rw [List.filter_cons_of_pos (by simp [hname]), List.map_cons] at hk
      rw [List.filter_cons_of_neg (by simp [hname])] at hv
      have hknew : k ∉ keys.map Prod.fst := by
        intro hm
        exact (List.nodup_append.mp hk).2.2 k hm k List.mem_cons_self rfl
      cases n with
      | name raw =>
        dsimp only [valueOf]
        rw [setId_new hknew]
        obtain ⟨un', h2⟩ := hstep (keys ++ [(k, chars raw)]) vals (by simpa using hk) hv
        refine ⟨un', ?_⟩
        rw [h2, keysOf, valsOf, if_pos hname]
        simp
      | _ => cases hname
    · rw [if_neg (fun e => hname ((letter_name hn).mp e))]
      rw [List.filter_cons_of_neg (by simpa using hname)] at hk
      rw [List.filter_cons_of_pos (by simpa using hname), List.map_cons] at hv
      have hvnew : k ∉ vals.map Prod.fst := by
        intro hm
        exact (List.nodup_append.mp hv).2.2 k hm k List.mem_cons_self rfl
      rw [setId_new hvnew]
      obtain ⟨un', h2⟩ := hstep keys (vals ++ [(k, valueOf n)]) hk (by simpa using hv)
      refine ⟨un', ?_⟩
      have hkeys : keysOf ((k, n) :: es) = keysOf es := by
        cases n <;> first | rfl | exact absurd rfl hname
      rw [h2, hkeys, valsOf, if_neg hname]
      simp
end

theorem getId_mem {α : Type} {k : Nat} {v : α} : ∀ {d : List (Nat × α)}, (d.map Prod.fst).Nodup → (k, v) ∈ d → getId k d = some v
  | (k', v') :: d, hn, h => by
    rw [List.map_cons, List.nodup_cons] at hn
    rw [getId]
    rcases List.mem_cons.mp h with e | h
    · injection e with e1 e2
      rw [if_pos e1.symm, e2]
    · rw [if_neg, getId_mem hn.2 h]
      rintro rfl
      exact hn.1 (List.mem_map.mpr ⟨_, h, rfl⟩)

theorem mem_getId {α : Type} {k : Nat} {v : α} : ∀ {d : List (Nat × α)}, getId k d = some v → (k, v) ∈ d
  | (k', v') :: d, h => by
    rw [getId] at h
    split at h
    · rename_i e
      injection h with h
      rw [e, h]
      exact List.mem_cons_self
    · exact List.mem_cons_of_mem _ (mem_getId h)

/-- One round of `matched`. -/
def addMatch (vals : List (Nat × Val)) (d : Dict) (e : Nat × Text) : Dict :=
  match getId e.1 vals with
  | some v => setKw e.2 v d
  | none => d

theorem matched_eq (keys : List (Nat × Text)) (vals : List (Nat × Val)) : matched keys vals = keys.foldl (addMatch vals) [] := rfl

theorem matched_other {vals : List (Nat × Val)} {name : Text} : ∀ (keys : List (Nat × Text)) (d : Dict), name ∉ keys.map Prod.snd →
    getKw name (keys.foldl (addMatch vals) d) = getKw name d
  | [], _, _ => rfl
  | (k, nm) :: keys, d, h => by
    rw [List.map_cons, List.mem_cons, not_or] at h
    rw [List.foldl_cons, matched_other keys _ h.2]
    unfold addMatch
    cases getId k vals with
    | none => rfl
    | some v => dsimp only; rw [getKw_setKw, if_neg h.1]

theorem matched_mem {vals : List (Nat × Val)} {name : Text} {id : Nat} {v : Val} (hv : getId id vals = some v) :
    ∀ (keys : List (Nat × Text)) (d : Dict), (keys.map Prod.snd).Nodup → (id, name) ∈ keys →
    getKw name (keys.foldl (addMatch vals) d) = some v
  | (k, nm) :: keys, d, hn, h => by
    rw [List.map_cons, List.nodup_cons] at hn
    rw [List.foldl_cons]
    rcases List.mem_cons.mp h with e | h
    · injection e with e1 e2
      subst e1 e2
      rw [matched_other keys _ hn.1]
      unfold addMatch
      rw [hv]
      dsimp only
      rw [getKw_setKw, if_pos rfl]
    · exact matched_mem hv keys _ hn.2 h

theorem matched_only {vals : List (Nat × Val)} {name : Text} {v : Val} : ∀ (keys : List (Nat × Text)) (d : Dict),
    getKw name (keys.foldl (addMatch vals) d) = some v → getKw name d = some v ∨ ∃ id, (id, name) ∈ keys ∧ getId id vals = some v
  | [], _, h => Or.inl h
  | (k, nm) :: keys, d, h => by
    rw [List.foldl_cons] at h
    rcases matched_only keys _ h with h | ⟨id, h1, h2⟩
    · unfold addMatch at h
      cases hg : getId k vals with
      | none => rw [hg] at h; exact Or.inl h
      | some w =>
        rw [hg] at h
        dsimp only at h
        rw [getKw_setKw] at h
        split at h
        · rename_i e
          refine Or.inr ⟨k, ?_, by rw [hg, h]⟩
          rw [e]
          exact List.mem_cons_self
        · exact Or.inl h
    · exact Or.inr ⟨id, List.mem_cons_of_mem _ h1, h2⟩

theorem keysOf_mem {id : Nat} {name : Text} : ∀ {es : List (Nat × Node)}, (id, name) ∈ keysOf es ↔ nameOf es id name
  | [] => by
    constructor
    · intro h; exact absurd h List.not_mem_nil
    · rintro ⟨raw, h, _⟩; exact absurd h List.not_mem_nil
  | (k, n) :: es => by
    have ih := keysOf_mem (id := id) (name := name) (es := es)
    unfold nameOf at ih ⊢
    cases n with
    | name raw =>
      rw [keysOf, List.mem_cons, ih]
      constructor
      · rintro (e | ⟨r, h1, h2⟩)
        · injection e with e1 e2
          exact ⟨raw, by rw [e1]; exact List.mem_cons_self, e2⟩
        · exact ⟨r, List.mem_cons_of_mem _ h1, h2⟩
      · rintro ⟨r, h1, h2⟩
        rcases List.mem_cons.mp h1 with e | h1
        · injection e with e1 e2
          injection e2 with e2
          exact Or.inl (by rw [e1, h2, e2])
        · exact Or.inr ⟨r, h1, h2⟩
    | _ =>
      rw [keysOf]
      · rw [ih]
        constructor
        · rintro ⟨r, h1, h2⟩
          exact ⟨r, List.mem_cons_of_mem _ h1, h2⟩
        · rintro ⟨r, h1, h2⟩
          rcases List.mem_cons.mp h1 with e | h1
          · injection e with e1 e2
            cases e2
          · exact ⟨r, h1, h2⟩
      all_goals (intro _ _ e; injection e with _ e2; cases e2)

theorem isName_ne {n : Node} : n.isName = false ↔ ∀ raw, n ≠ .name raw := by
  cases n <;> simp [Node.isName]

theorem valsOf_mem {id : Nat} {v : Val} : ∀ {es : List (Nat × Node)}, (id, v) ∈ valsOf es ↔
    ∃ n, (id, n) ∈ es ∧ (∀ raw, n ≠ .name raw) ∧ v = valueOf n
  | [] => by
    rw [valsOf]
    constructor
    · intro h; exact absurd h List.not_mem_nil
    · rintro ⟨n, h, _⟩; exact absurd h List.not_mem_nil
  | (k, n) :: es => by
    have ih := valsOf_mem (id := id) (v := v) (es := es)
    rw [valsOf]
    by_cases hn : n.isName = true
    · rw [if_pos hn, ih]
      constructor
      · rintro ⟨m, h1, h2⟩
        exact ⟨m, List.mem_cons_of_mem _ h1, h2⟩
      · rintro ⟨m, h1, h2⟩
        rcases List.mem_cons.mp h1 with e | h1
        · injection e with e1 e2
          have := isName_ne.mpr h2.1
          rw [e2, hn] at this
          cases this
        · exact ⟨m, h1, h2⟩
    · have hn' := isName_ne.mp (by simpa using hn)
      rw [if_neg hn, List.mem_cons, ih]
      constructor
      · rintro (e | ⟨m, h1, h2⟩)
        · injection e with e1 e2
          exact ⟨n, by rw [e1]; exact List.mem_cons_self, hn', e2⟩
        · exact ⟨m, List.mem_cons_of_mem _ h1, h2⟩
      · rintro ⟨m, h1, h2⟩
        rcases List.mem_cons.mp h1 with e | h1
        · injection e with e1 e2
          exact Or.inl (by rw [e1, h2.2, e2])
        · exact Or.inr ⟨m, h1, h2⟩

theorem numVal {c : UInt8} {raw : Bytes} (h : wide c ≠ 0) : NumVal c raw (scalar c raw) := by
  unfold scalar
  by_cases h1 : c = 63
  · rw [if_pos h1]
    exact Or.inl ⟨h1, by rw [stored_le]⟩
  rw [if_neg h1]
  by_cases h2 : c = 114
  · rw [if_pos h2]
    exact ⟨h2, by rw [stored_le]⟩
  rw [if_neg h2]
  by_cases h3 : c = 113
  · rw [if_pos h3]
    exact ⟨h3, by rw [stored_le]⟩
  rw [if_neg h3]
  by_cases h4 : c = 116
  · rw [if_pos h4]
    exact ⟨h4, by rw [stored_le]⟩
  rw [if_neg h4]
  refine Or.inr ⟨?_, ?_⟩
  · by_contra hn
    simp only [List.mem_cons, List.not_mem_nil, or_false, not_or] at hn
    apply h
    unfold wide
    simp [h1, h2, h3, h4, hn]
  · have := encodes_toSigned false raw
    rwa [stored_le] at this

mutual
theorem node_means : ∀ (n : Node), n.Ok → (∀ raw, n ≠ .name raw) → Means n (valueOf n)
  | .number c raw, h, _ => by rw [valueOf]; exact Means.number (numVal h.1)
  | .array c raws, h, _ => by
    rw [valueOf]
    refine Means.array ?_
    have : ∀ l : List Bytes, List.Forall₂ (fun raw v => NumVal c raw v) l (l.map (scalar c)) := by
      intro l
      induction l with
      | nil => exact List.Forall₂.nil
      | cons a l ih => exact List.Forall₂.cons (numVal h.1) ih
    exact this raws
  | .text raw, _, _ => by rw [valueOf]; exact Means.text
  | .binary raw, _, _ => by rw [valueOf]; exact Means.binary
  | .compressed raw, _, _ => by rw [valueOf]; exact Means.compressed
  | .name raw, _, h => absurd rfl (h raw)
  | .nested es, h, _ => by
    rw [Node.Ok] at h
    rw [valueOf]
    exact set_means es h.2.2.2.2 h.2.1 h.2.2.1 h.2.2.2.1 (entries_means es h.2.2.2.2)

theorem entries_means : ∀ (es : List (Nat × Node)), EntriesOk es →
    ∀ id n, (id, n) ∈ es → (∀ raw, n ≠ .name raw) → Means n (valueOf n)
  | [], _, id, n, hm, _ => absurd hm List.not_mem_nil
  | (k, m) :: es, h, id, n, hm, hn => by
    rw [EntriesOk] at h
    rcases List.mem_cons.mp hm with e | hm
    · injection e with e1 e2
      rw [e2] at hn ⊢
      exact node_means m h.2.1 hn
    · exact entries_means es h.2.2 id n hm hn

theorem set_means : ∀ (es : List (Nat × Node)), EntriesOk es → ((es.filter fun e => e.2.isName).map Prod.fst).Nodup →
    ((es.filter fun e => !e.2.isName).map Prod.fst).Nodup → ((es.filter fun e => e.2.isName).map fun e => e.2.chars).Nodup →
    (∀ id n, (id, n) ∈ es → (∀ raw, n ≠ .name raw) → Means n (valueOf n)) →
    Means (.nested es) (.nested (matched (keysOf es) (valsOf es)))
  | es, _, hk, hv, hn, hm => by
    rw [← keysOf_names] at hn
    rw [← valsOf_ids] at hv
    have key : ∀ id name n, nameOf es id name → (id, n) ∈ es → (∀ raw, n ≠ .name raw) →
        getKw name (matched (keysOf es) (valsOf es)) = some (valueOf n) := by
      intro id name n h1 h2 h3
      rw [matched_eq]
      exact matched_mem (getId_mem hv (valsOf_mem.mpr ⟨n, h2, h3, rfl⟩)) _ _ hn (keysOf_mem.mpr h1)
    refine Means.nested ?_ ?_ ?_
    · intro id name n h1 h2 h3
      exact ⟨_, key id name n h1 h2 h3⟩
    · intro id name n v h1 h2 h3 h4
      rw [key id name n h1 h2 h3] at h4
      injection h4 with h4
      rw [← h4]
      exact hm id n h2 h3
    · intro name v h
      rw [matched_eq] at h
      rcases matched_only _ _ h with h | ⟨id, h1, h2⟩
      · cases h
      · obtain ⟨n, h3, h4, _⟩ := valsOf_mem.mp (mem_getId h2)
        exact ⟨id, n, keysOf_mem.mp h1, h3, h4⟩
end

theorem bind_ok {α β : Type} {x : Py α} {g : α → Py β} {r : β} : (x >>= g) = .ok r ↔ ∃ a, x = .ok a ∧ g a = .ok r := by
  cases x with
  | error e =>
    constructor
    · intro h; cases h
    · rintro ⟨a, h, _⟩; cases h
  | ok a =>
    constructor
    · intro h; exact ⟨a, rfl, h⟩
    · rintro ⟨b, h, h2⟩
      injection h with h
      rw [h]
      exact h2

theorem psetSize_found {f : Bytes} {blocks : Blocks} {id : Text} {es : List (Nat × Node)} {extra : Bytes}
    (h : Found f blocks id (pset es extra)) (hl : (setBytes es).length < 2 ^ 32) :
    psetSize f blocks id = .ok (setBytes es).length := by
  obtain ⟨p, h1, h2⟩ := h
  have hlen : (pset es extra).length = 8 + (setBytes es).length + extra.length := by
    unfold pset; simp [leBytes_length]; omega
  unfold psetSize
  rw [h1]
  dsimp only
  have n1 := h2.number (o := 0) (w := 4) (by omega)
  have n2 := h2.number (o := 4) (w := 4) (by omega)
  rw [Nat.add_zero] at n1
  have v1 : num (pset es extra) 0 4 = 0x54455350 := by
    unfold num pset
    rw [stored_le, List.drop_zero, List.append_assoc, List.append_assoc,
      List.take_append_of_le_length (by simp), List.take_of_length_le (by simp)]
    decide
  have v2 : num (pset es extra) 4 4 = (setBytes es).length := by
    unfold num pset
    rw [stored_le]
    have : ([80, 83, 69, 84] ++ leBytes 4 (setBytes es).length ++ setBytes es ++ extra).drop 4 =
        leBytes 4 (setBytes es).length ++ (setBytes es ++ extra) := by simp
    rw [this]
    have h4 : (leBytes 4 (setBytes es).length).length = 4 := leBytes_length _ _
    rw [List.take_append_of_le_length (by rw [h4]), List.take_of_length_le (by rw [h4]), leVal_leBytes_mod,
      Nat.mod_eq_of_lt (by norm_num at hl ⊢; exact hl)]
  rw [n1, n2, v1, v2]
  dsimp only [bind, Except.bind]
  rw [if_neg (by simp)]

theorem parseMeta_found {f : Bytes} {blocks : Blocks} {id : Text} {es : List (Nat × Node)} {extra : Bytes}
    (h : Found f blocks id (pset es extra)) (hes : es ≠ []) (hok : (Node.nested es).Ok) (m : Meta) :
    ∃ un, parseMeta f blocks m id = .ok (setKw id (matched (keysOf es) (valsOf es)) m.1, un) := by
  rw [Node.Ok] at hok
  have hs := psetSize_found h hok.1
  obtain ⟨p, h1, h2⟩ := h
  obtain ⟨A, C, hf, hp⟩ := h2.split
  have hne : (setBytes es).length ≠ 0 := by
    cases es with
    | nil => exact absurd rfl hes
    | cons e es =>
      obtain ⟨k, n⟩ := e
      rw [setBytes, List.length_append, nodeBytes_length]
      omega
  have hrest : f.drop (p + 8) = setBytes es ++ (extra ++ C) := by
    rw [hf, ← List.drop_drop, ← hp, List.append_assoc, List.drop_left]
    unfold pset
    have : ([80, 83, 69, 84] ++ leBytes 4 (setBytes es).length).length = 8 := by simp [leBytes_length]
    rw [List.append_assoc, List.append_assoc, ← this, List.drop_left]
  obtain ⟨un, hr⟩ := set_read es hok.2.2.2.2 ((f.drop (p + 8)).length + 1) id (extra ++ C) [] [] m.2
    (by rw [hrest, List.length_append]; omega) (by simpa using hok.2.1) (by simpa using hok.2.2.1)
  refine ⟨un, ?_⟩
  unfold parseMeta
  rw [hs, h1]
  dsimp only [bind, Except.bind]
  rw [if_neg hne]
  rw [← hrest] at hr
  rw [hr]
  rfl

theorem parseMeta_keep {f : Bytes} {blocks : Blocks} {id k : Text} {m m' : Meta} (h : parseMeta f blocks m id = .ok m') (hk : k ≠ id) :
    getKw k m'.1 = getKw k m.1 := by
  unfold parseMeta at h
  obtain ⟨size, _, h⟩ := bind_ok.mp h
  split at h
  · injection h with h; rw [h]
  · cases hg : getKw id blocks with
    | none => rw [hg] at h; injection h with h; rw [h]
    | some q =>
      rw [hg] at h
      obtain ⟨x, _, h⟩ := bind_ok.mp h
      injection h with h
      rw [← h]
      dsimp only
      rw [getKw_setKw, if_neg hk]

theorem parseMap_keep {f : Bytes} {blocks : Blocks} {id k : Text} {m m' : Meta} (h : parseMap f blocks m id = .ok m') (hk : k ≠ id) :
    getKw k m'.1 = getKw k m.1 := by
  unfold parseMap at h
  cases hg : getKw id blocks with
  | none => rw [hg] at h; injection h with h; rw [h]
  | some q =>
    rw [hg] at h
    obtain ⟨_, _, h⟩ := bind_ok.mp h
    obtain ⟨_, _, h⟩ := bind_ok.mp h
    obtain ⟨_, _, h⟩ := bind_ok.mp h
    obtain ⟨_, _, h⟩ := bind_ok.mp h
    injection h with h
    rw [← h]
    dsimp only
    rw [getKw_setKw, if_neg hk]

theorem fold_meta {f : Bytes} {blocks : Blocks} {id : String} {d : Dict}
    (hd : ∀ m, ∃ un, parseMeta f blocks m id.toList = .ok (setKw id.toList d m.1, un)) :
    ∀ (ids : List String) (m m' : Meta), (id ∈ ids ∨ getKw id.toList m.1 = some d) →
      ids.foldlM (fun m i => parseMeta f blocks m i.toList) m = .ok m' → getKw id.toList m'.1 = some d
  | [], m, m', h, he => by
    injection he with he
    rw [← he]
    rcases h with h | h
    · exact absurd h List.not_mem_nil
    · exact h
  | i :: ids, m, m', h, he => by
    rw [List.foldlM_cons] at he
    obtain ⟨m1, h1, h2⟩ := bind_ok.mp he
    refine fold_meta hd ids m1 m' ?_ h2
    by_cases hi : i = id
    · subst hi
      obtain ⟨un, h3⟩ := hd m
      rw [h3] at h1
      injection h1 with h1
      rw [← h1]
      exact Or.inr (by dsimp only; rw [getKw_setKw, if_pos rfl])
    · rcases h with h | h
      · rcases List.mem_cons.mp h with e | h
        · exact absurd e.symm hi
        · exact Or.inl h
      · refine Or.inr ?_
        rw [parseMeta_keep h1, h]
        intro e
        exact hi (String.toList_injective e).symm

/-- The blocks that hold only metadata. -/
def metaIds : List String := ["WXIS_0", "WXCS_0", "WXDA_0", "ZLDC_0", "WARP_0", "WARP_1", "WXDM_0"]

theorem readMeta_found {f : Bytes} {blocks : Blocks} {id : String} {es : List (Nat × Node)} {extra : Bytes} {m : Meta}
    (h : Found f blocks id.toList (pset es extra)) (hes : es ≠ []) (hok : (Node.nested es).Ok) (hid : id ∈ metaIds)
    (hm : readMeta f blocks = .ok m) : getKw id.toList m.1 = some (matched (keysOf es) (valsOf es)) := by
  unfold readMeta at hm
  obtain ⟨m1, h1, hm⟩ := bind_ok.mp hm
  obtain ⟨_, _, hm⟩ := bind_ok.mp hm
  obtain ⟨m2, h2, h3⟩ := bind_ok.mp hm
  have hne : ∀ k ∈ metaIds, k ≠ "MAP_0" ∧ k ≠ "MAP_1" := by decide
  rw [parseMap_keep h3 (fun e => (hne id hid).2 (String.toList_injective e)),
    parseMap_keep h2 (fun e => (hne id hid).1 (String.toList_injective e))]
  exact fold_meta (fun m => parseMeta_found h hes hok m) metaIds ([], []) m1 (Or.inl hid) h1

/-- Reading metadata does not raise. -/
theorem fold_meta_ok {f : Bytes} {blocks : Blocks} : ∀ (ids : List String) (m : Meta),
    (∀ i ∈ ids, getKw i.toList blocks = none ∨ ∃ es extra, Found f blocks i.toList (pset es extra) ∧ es ≠ [] ∧ (Node.nested es).Ok) →
    ∃ m', ids.foldlM (fun m i => parseMeta f blocks m i.toList) m = .ok m' ∧
      ∀ k, k ∉ ids.map String.toList → getKw k m'.1 = getKw k m.1
  | [], m, _ => ⟨m, rfl, fun _ _ => rfl⟩
  | i :: ids, m, h => by
    have h1 : ∃ m1, parseMeta f blocks m i.toList = .ok m1 := by
      rcases h i List.mem_cons_self with h1 | ⟨es, extra, h1, h2, h3⟩
      · refine ⟨m, ?_⟩
        unfold parseMeta psetSize
        rw [h1]
        rfl
      · obtain ⟨un, h4⟩ := parseMeta_found h1 h2 h3 m
        exact ⟨_, h4⟩
    obtain ⟨m1, h1⟩ := h1
    obtain ⟨m', h2, h3⟩ := fold_meta_ok ids m1 fun x hx => h x (List.mem_cons_of_mem _ hx)
    refine ⟨m', ?_, ?_⟩
    · rw [List.foldlM_cons, h1]
      exact h2
    · intro k hk
      rw [List.map_cons, List.mem_cons, not_or] at hk
      rw [h3 k hk.2, parseMeta_keep h1 hk.1]

theorem readMeta_ok {f : Bytes} {blocks : Blocks}
    (h : ∀ i ∈ metaIds, getKw i.toList blocks = none ∨ ∃ es extra, Found f blocks i.toList (pset es extra) ∧ es ≠ [] ∧ (Node.nested es).Ok)
    (hx : getKw "WXDM_0".toList blocks = none) (h0 : getKw "MAP_0".toList blocks = none) (h1 : getKw "MAP_1".toList blocks = none) :
    ∃ m, readMeta f blocks = .ok m := by
  obtain ⟨m1, h2, h3⟩ := fold_meta_ok ["WXIS_0", "WXCS_0", "WXDA_0", "ZLDC_0", "WARP_0", "WARP_1"] ([], []) fun i hi =>
    h i (by
      revert hi
      revert i
      decide)
  have h4 : parseMeta f blocks m1 "WXDM_0".toList = .ok m1 := by
    unfold parseMeta psetSize
    rw [hx]
    rfl
  refine ⟨m1, ?_⟩
  unfold readMeta
  have e : (["WXIS_0", "WXCS_0", "WXDA_0", "ZLDC_0", "WARP_0", "WARP_1", "WXDM_0"] : List String) =
      ["WXIS_0", "WXCS_0", "WXDA_0", "ZLDC_0", "WARP_0", "WARP_1"] ++ ["WXDM_0"] := rfl
  rw [e, List.foldlM_append, h2]
  dsimp only [bind, Except.bind]
  rw [List.foldlM_cons, h4]
  dsimp only [bind, Except.bind, List.foldlM_nil, pure, Except.pure]
  have h5 : mapWxdm m1 = .ok () := by
    unfold mapWxdm
    rw [h3 _ (by decide)]
    rfl
  rw [h5]
  dsimp only
  unfold parseMap
  rw [h0, h1]

end Verif.Lemmas.Renishaw
