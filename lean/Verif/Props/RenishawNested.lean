import Verif.Model.RenishawNested
import Mathlib.Data.List.Induction
import Mathlib.Data.List.Nodup
/-!
C171: names of the values of nested parts in Renishaw files.
-/
namespace Verif.Props.RenishawNested
open Verif Verif.RenishawNested

/-! ### What is claimed -/

/-- The identifier of a part: that of the block, and the numbers of the parts that it is in, and its own. -/
def idOf (p : List Nat) : Text := "WXDM_0".toList ++ p.flatMap fun n => '_' :: decChars n

/-- The parts that are directly in `p`. -/
def inside (parts : List (List Nat)) (p : List Nat) : List (List Nat) :=
  parts.filter fun q => decide (q.length = p.length + 1 ∧ p <+: q)

/-- The dictionary of the part `p`: those of the parts in it, in their order, and all values that have a name, just with it. -/
inductive Shows {α : Type} (names : List (Text × Text)) (vals : List Nat → List (Text × α)) (parts : List (List Nat)) :
    List Nat → Node α → Prop
  | mk (p : List Nat) (subs : List (Node α)) (values : List (Text × α)) :
    List.Forall₂ (Shows names vals parts) (inside parts p) subs →
    (∀ t v, (t, v) ∈ values ↔ ∃ k, (k, t) ∈ names ∧ (k, v) ∈ vals p) → Shows names vals parts p (.mk subs values)

/-- No identifier begins with that of a part it is not in. -/
def Apart (parts : List (List Nat)) : Prop := ∀ p ∈ parts, ∀ q ∈ parts, idOf p <+: idOf q → p <+: q

/-! ### Values -/

private theorem look_of {β : Type} {d : List (Text × β)} (hd : (d.map Prod.fst).Nodup) (k : Text) (v : β) :
    look d k = some v ↔ (k, v) ∈ d := by
  unfold look
  rw [Option.map_eq_some_iff]
  constructor
  · rintro ⟨e, he, rfl⟩
    have h1 := List.find?_some he
    have h2 := List.mem_of_find?_eq_some he
    simp only [decide_eq_true_eq] at h1
    rw [← h1]
    exact h2
  · intro h
    have : (d.find? fun e => decide (e.1 = k)).isSome := by
      rw [List.find?_isSome]
      exact ⟨(k, v), h, by simp⟩
    obtain ⟨e, he⟩ := Option.isSome_iff_exists.1 this
    refine ⟨e, he, ?_⟩
    have h1 := List.find?_some he
    have h2 := List.mem_of_find?_eq_some he
    simp only [decide_eq_true_eq] at h1
    have := List.inj_on_of_nodup_map hd h2 h h1
    rw [this]

private theorem put_mem {α : Type} (d : List (Text × α)) (k k' : Text) (v w : α) :
    (k', w) ∈ put d k v ↔ (k' = k ∧ w = v) ∨ (k' ≠ k ∧ (k', w) ∈ d) := by
  unfold put
  split
  · rename_i h
    simp only [List.any_eq_true, decide_eq_true_eq] at h
    obtain ⟨e, he, hk⟩ := h
    rw [List.mem_map]
    constructor
    · rintro ⟨e', he', h⟩
      split at h
      · cases h
        exact .inl ⟨rfl, rfl⟩
      · subst h
        exact .inr ⟨by assumption, he'⟩
    · rintro (⟨rfl, rfl⟩ | ⟨h1, h2⟩)
      · exact ⟨e, he, if_pos hk⟩
      · exact ⟨(k', w), h2, if_neg h1⟩
  · rename_i h
    simp only [List.any_eq_true, decide_eq_true_eq, not_exists, not_and] at h
    rw [List.mem_append, List.mem_singleton, Prod.mk.injEq]
    constructor
    · rintro (h1 | h1)
      · exact .inr ⟨h _ h1, h1⟩
      · exact .inl h1
    · rintro (h1 | h1)
      · exact .inr h1
      · exact .inl h1.2

private theorem named_mem {α : Type} {names : List (Text × Text)} (hn : (names.map Prod.fst).Nodup)
    (ht : (names.map Prod.snd).Nodup) (l : List (Text × α)) (hl : (l.map Prod.fst).Nodup) (t : Text) (v : α) :
    (t, v) ∈ named names l ↔ ∃ k, (k, t) ∈ names ∧ (k, v) ∈ l := by
  induction l using List.reverseRecOn with
  | nil => simp [named]
  | append_singleton l e ih =>
    obtain ⟨k0, v0⟩ := e
    rw [List.map_append, List.nodup_append] at hl
    have hk : ∀ w, (k0, w) ∉ l := by
      intro w hw
      exact hl.2.2 k0 (List.mem_map.2 ⟨_, hw, rfl⟩) k0 (by simp) rfl
    have hs : named names (l ++ [(k0, v0)]) = match look names k0 with
        | some t => put (named names l) t v0
        | none => named names l := by
      rw [named, List.foldl_append]
      rfl
    rw [hs]
    simp only [List.mem_append, List.mem_singleton, Prod.mk.injEq]
    cases hlk : look names k0 with
    | none =>
      dsimp only
      rw [ih hl.1]
      constructor
      · rintro ⟨k, h1, h2⟩
        exact ⟨k, h1, .inl h2⟩
      · rintro ⟨k, h1, h2 | ⟨rfl, rfl⟩⟩
        · exact ⟨k, h1, h2⟩
        · rw [← look_of hn, hlk] at h1
          cases h1
    | some t0 =>
      dsimp only
      rw [put_mem, ih hl.1]
      have h0 := (look_of hn _ _).1 hlk
      constructor
      · rintro (⟨rfl, rfl⟩ | ⟨h, k, h1, h2⟩)
        · exact ⟨k0, h0, .inr ⟨rfl, rfl⟩⟩
        · exact ⟨k, h1, .inl h2⟩
      · rintro ⟨k, h1, h2 | ⟨rfl, rfl⟩⟩
        · by_cases he : t = t0
          · subst he
            have := List.inj_on_of_nodup_map ht h1 h0 rfl
            cases this
            exact absurd h2 (hk v)
          · exact .inr ⟨he, k, h1, h2⟩
        · have := (look_of hn _ _).2 h1
          rw [hlk] at this
          cases this
          exact .inl ⟨rfl, rfl⟩

/-! ### Identifiers -/

private theorem idOf_append (p q : List Nat) : idOf (p ++ q) = idOf p ++ q.flatMap fun n => '_' :: decChars n := by
  simp [idOf]

private theorem idOf_prefix {p q : List Nat} (h : p <+: q) : idOf p <+: idOf q := by
  obtain ⟨r, rfl⟩ := h
  rw [idOf_append]
  exact List.prefix_append _ _

private theorem count_idOf (p : List Nat) : (idOf p).count '_' = p.length + 1 := by
  have h : ∀ n, (decChars n).count '_' = 0 := by
    intro n
    rw [List.count_eq_zero]
    intro hm
    exact absurd (decChars_digits n _ hm) (by decide)
  have h2 : (p.flatMap fun n => '_' :: decChars n).count '_' = p.length := by
    induction p with
    | nil => rfl
    | cons a p ih => simp [List.count_append, ih, h, Nat.add_comm]
  have h3 : "WXDM_0".toList.count '_' = 1 := by decide
  rw [idOf, List.count_append, h2, h3, Nat.add_comm]

private theorem idOf_inj {parts : List (List Nat)} (ha : Apart parts) {p q : List Nat} (hp : p ∈ parts) (hq : q ∈ parts)
    (h : idOf p = idOf q) : p = q := by
  have h1 := ha p hp q hq (by rw [h]; exact List.prefix_rfl)
  have h2 := ha q hq p hp (by rw [h]; exact List.prefix_rfl)
  exact h1.eq_of_length (Nat.le_antisymm h1.length_le h2.length_le)

/-! ### Parts in parts -/

section
variable {α : Type} {names : List (Text × Text)} {vals : List Nat → List (Text × α)} {vals' : Text → List (Text × α)}
  {parts : List (List Nat)}

private theorem erase_map (ha : Apart parts) (hd : parts.Nodup) (φ : List Nat → Bool) {c : List Nat} (hc : c ∈ parts) :
    ((parts.filter φ).map idOf).erase (idOf c) = (parts.filter fun q => φ q && decide (q ≠ c)).map idOf := by
  have hnd : ((parts.filter φ).map idOf).Nodup := by
    refine (List.nodup_map_iff_inj_on (hd.filter _)).2 ?_
    intro x hx y hy hxy
    exact idOf_inj ha (List.mem_filter.1 hx).1 (List.mem_filter.1 hy).1 hxy
  rw [hnd.erase_eq_filter, List.filter_map, List.filter_filter]
  congr 1
  refine List.filter_congr fun q hq => ?_
  by_cases hqc : q = c
  · subst hqc
    simp
  · have : (idOf q == idOf c) = false := beq_eq_false_iff_ne.2 fun h => hqc (idOf_inj ha hq hc h)
    simp [this, bne, hqc]

private theorem sub_map (φ : List Nat → Bool) (c : List Nat) :
    ((parts.filter φ).map idOf).filter (fun i => (idOf c).isPrefixOf i) =
      (parts.filter fun q => φ q && (idOf c).isPrefixOf (idOf q)).map idOf := by
  rw [List.filter_map, List.filter_filter]
  congr 1
  exact List.filter_congr fun q _ => by simp [Function.comp_def, Bool.and_comm]

private theorem shows_inside (ha : Apart parts) (hd : parts.Nodup) (hn : (names.map Prod.fst).Nodup)
    (ht : (names.map Prod.snd).Nodup) (hv : ∀ p ∈ parts, ((vals p).map Prod.fst).Nodup)
    (hvals : ∀ p ∈ parts, vals' (idOf p) = vals p) (fuel : Nat) :
    ∀ (p : List Nat) (φ : List Nat → Bool), (∀ q ∈ parts, φ q = true → p <+: q) →
      (∀ q ∈ parts, p <+: q → p.length < q.length → φ q = true) →
      (∀ q ∈ parts, p <+: q → q.length ≤ p.length + fuel) →
      List.Forall₂ (Shows names vals parts) (inside parts p)
        (matchValues names vals' fuel (p.length + 2) ((parts.filter φ).map idOf)) := by
  induction fuel with
  | zero =>
    intro p φ h1 h2 h3
    have : inside parts p = [] := by
      rw [inside, List.filter_eq_nil_iff]
      intro q hq h
      simp only [decide_eq_true_eq] at h
      have := h3 q hq h.2
      omega
    rw [this]
    exact .nil
  | succ fuel ih =>
    intro p φ h1 h2 h3
    have hlvl : ((parts.filter φ).map idOf).filter (fun i => decide (i.count '_' = p.length + 2)) =
        (inside parts p).map idOf := by
      rw [List.filter_map, List.filter_filter, inside]
      congr 1
      refine List.filter_congr fun q hq => ?_
      simp only [Function.comp_def, count_idOf]
      by_cases hl : q.length = p.length + 1
      · by_cases hp : p <+: q
        · simp [hl, hp, h2 q hq hp (by omega)]
        · have : φ q = false := by
            by_contra h
            exact hp (h1 q hq (by simpa using h))
          simp [hp, this]
      · have : ¬ q.length + 1 = p.length + 2 := by omega
        simp [hl, this]
    rw [matchValues, hlvl]
    have key : ∀ (cs : List (List Nat)) (φ : List Nat → Bool), (∀ c ∈ cs, c ∈ parts ∧ c.length = p.length + 1 ∧ p <+: c) →
        (∀ q ∈ parts, ∀ c ∈ cs, c <+: q → c.length < q.length → φ q = true) →
        List.Forall₂ (Shows names vals parts) cs (loop (fun k sub =>
          .mk (matchValues names vals' fuel (p.length + 2 + 1) sub) (named names (vals' k))) (cs.map idOf)
          ((parts.filter φ).map idOf)) := by
      intro cs
      induction cs with
      | nil => intro φ _ _; exact .nil
      | cons c cs ihc =>
        intro φ hc hφ
        obtain ⟨hcp, hcl, hpc⟩ := hc c (by simp)
        rw [List.map_cons, loop, erase_map ha hd φ hcp, sub_map]
        refine .cons (.mk c _ _ ?_ ?_) (ihc _ (fun c' hc' => hc c' (by simp [hc'])) ?_)
        · have := ih c (fun q => (φ q && decide (q ≠ c)) && (idOf c).isPrefixOf (idOf q)) ?_ ?_ ?_
          · rwa [hcl] at this
          · intro q hq h
            simp only [Bool.and_eq_true, List.isPrefixOf_iff_prefix] at h
            exact ha c hcp q hq h.2
          · intro q hq h hl
            simp only [Bool.and_eq_true, List.isPrefixOf_iff_prefix, decide_eq_true_eq]
            refine ⟨⟨hφ q hq c (by simp) h hl, ?_⟩, idOf_prefix h⟩
            rintro rfl
            omega
          · intro q hq h
            have := h3 q hq (hpc.trans h)
            omega
        · intro t v
          rw [hvals c hcp]
          exact named_mem hn ht _ (hv c hcp) t v
        · intro q hq c' hc' h hl
          simp only [Bool.and_eq_true, decide_eq_true_eq]
          refine ⟨hφ q hq c' (by simp [hc']) h hl, ?_⟩
          rintro rfl
          have := (hc c' (by simp [hc'])).2.1
          omega
    refine key _ φ ?_ ?_
    · intro c hc
      rw [inside, List.mem_filter, decide_eq_true_eq] at hc
      exact hc
    · intro q hq c hc h hl
      rw [inside, List.mem_filter, decide_eq_true_eq] at hc
      exact h2 q hq (hc.2.2.trans h) (by omega)

end

/-! ### The claim -/

private theorem le_sum {l : List Nat} {n : Nat} (h : n ∈ l) : n ≤ l.sum := by
  induction l with
  | nil => simp at h
  | cons a l ih =>
    rw [List.sum_cons]
    rcases List.mem_cons.1 h with rfl | h
    · omega
    · have := ih h
      omega

/-- The entries of the block: the parts with their keys and values, under their identifiers. -/
def entries {α : Type} (l : List (List Nat × Part α)) : List (Text × Part α) := l.map fun e => (idOf e.1, e.2)

/-- C171: the extra entries of the metadata are the parts of the block, those in parts at their place, and in each all values that have
a name in the block, just with this name.

The full claim is this for all parts. Missing: parts whose identifier begins with that of another part that they are not in
(`C171_fails_clash`), and parts in a part for which nothing is stored (`C171_fails_gap`). -/
theorem C171_nested_partial {α : Type} (l : List (List Nat × Part α)) (hd : (l.map Prod.fst).Nodup)
    (ha : Apart (l.map Prod.fst)) (top : Part α) (h0 : ([], top) ∈ l) (hn : (top.keys.map Prod.fst).Nodup)
    (ht : (top.keys.map Prod.snd).Nodup) (hv : ∀ e ∈ l, (e.2.values.map Prod.fst).Nodup)
    (hsub : inside (l.map Prod.fst) [] ≠ []) (vals : List Nat → List (Text × α))
    (hvals : ∀ p x, (p, x) ∈ l → vals p = x.values) :
    ∃ subs, extra (entries l) = .ok subs ∧
      List.Forall₂ (Shows top.keys vals (l.map Prod.fst)) (inside (l.map Prod.fst) []) subs := by
  have hmem : ∀ p ∈ l.map Prod.fst, ∃ x, (p, x) ∈ l := by
    intro p hp
    obtain ⟨e, he, rfl⟩ := List.mem_map.1 hp
    exact ⟨e.2, he⟩
  have h0p : [] ∈ l.map Prod.fst := List.mem_map.2 ⟨_, h0, rfl⟩
  have hfst : (entries l).map Prod.fst = (l.map Prod.fst).map idOf := by simp [entries, Function.comp_def]
  have hkeys : ((entries l).map Prod.fst).Nodup := by
    rw [hfst]
    exact (List.nodup_map_iff_inj_on hd).2 fun x hx y hy => idOf_inj ha hx hy
  have hent : ((entries l).map Prod.fst).filter (fun i => "WXDM".toList.isPrefixOf i) = (l.map Prod.fst).map idOf := by
    rw [hfst, List.filter_eq_self]
    intro i hi
    obtain ⟨p, -, rfl⟩ := List.mem_map.1 hi
    rw [List.isPrefixOf_iff_prefix]
    exact ⟨"_0".toList ++ p.flatMap fun n => '_' :: decChars n, by simp [idOf]⟩
  have htop : look (entries l) "WXDM_0".toList = some top :=
    (look_of hkeys _ _).2 (List.mem_map.2 ⟨_, h0, by simp [idOf]⟩)
  have hvals' : ∀ p ∈ l.map Prod.fst, valuesOf (entries l) (idOf p) = vals p := by
    intro p hp
    obtain ⟨x, hx⟩ := hmem p hp
    rw [valuesOf, (look_of hkeys _ _).2 (List.mem_map.2 ⟨_, hx, rfl⟩)]
    exact (hvals p x hx).symm
  have hv' : ∀ p ∈ l.map Prod.fst, ((vals p).map Prod.fst).Nodup := by
    intro p hp
    obtain ⟨x, hx⟩ := hmem p hp
    rw [hvals p x hx]
    exact hv _ hx
  have hsum : ∀ q ∈ l.map Prod.fst, q.length ≤ (((l.map Prod.fst).map idOf).map fun i => i.count '_').sum := by
    intro q hq
    have := le_sum (l := ((l.map Prod.fst).map idOf).map fun i => i.count '_') (n := q.length + 1)
      (List.mem_map.2 ⟨idOf q, List.mem_map.2 ⟨q, hq, rfl⟩, count_idOf q⟩)
    omega
  generalize hF : (((l.map Prod.fst).map idOf).map fun i => i.count '_').sum = F at hsum
  have hlvl : ((l.map Prod.fst).map idOf).filter (fun i => decide (i.count '_' = 1)) = [idOf []] := by
    rw [List.filter_map]
    have : (l.map Prod.fst).filter ((fun i => decide (i.count '_' = 1)) ∘ idOf) = (l.map Prod.fst).filter (· == []) := by
      refine List.filter_congr fun q _ => ?_
      simp only [Function.comp_def, count_idOf]
      cases q <;> simp
    rw [this]
    have : (l.map Prod.fst).filter (· == []) = [[]] := by
      rw [List.filter_beq, List.count_eq_one_of_mem hd h0p]
      rfl
    rw [this]
    rfl
  have hin := shows_inside (names := top.keys) (vals := vals) (vals' := valuesOf (entries l)) ha hd hn ht hv' hvals' F []
    (fun q => (true && decide (q ≠ [])) && (idOf []).isPrefixOf (idOf q)) (fun q _ _ => List.nil_prefix) (by
      intro q hq _ hl
      have : q ≠ [] := by rintro rfl; simp at hl
      simp [this, idOf_prefix (List.nil_prefix : [] <+: q)]) (by
      intro q hq _
      simpa using hsum q hq)
  refine ⟨_, ?_, hin⟩
  have hm : matchValues top.keys (valuesOf (entries l)) (F + 1) 1 ((l.map Prod.fst).map idOf) =
      [.mk (matchValues top.keys (valuesOf (entries l)) F (([] : List Nat).length + 2) (((l.map Prod.fst).filter fun q : List Nat =>
        (true && decide (q ≠ [])) && (idOf []).isPrefixOf (idOf q)).map idOf))
        (named top.keys (valuesOf (entries l) (idOf [])))] := by
    rw [matchValues, hlvl]
    have e : (l.map Prod.fst).map idOf = ((l.map Prod.fst).filter fun _ => true).map idOf := by simp
    rw [e, loop, erase_map ha hd _ h0p, sub_map]
    rfl
  unfold extra
  rw [hent, htop]
  dsimp only
  rw [hF, hm]
  dsimp only
  rw [if_neg]
  · rfl
  · rw [List.isEmpty_iff, Node.subs]
    intro h
    rw [h] at hin
    exact hsub (List.forall₂_nil_right_iff.1 hin)

/-! ### An example, and failures -/

/-- A block with a part that has a part. -/
def sample : List (List Nat × Part Nat) :=
  [([70, 3], ⟨[], [("1".toList, 8)]⟩), ([70], ⟨[], [("1".toList, 5), ("9".toList, 4)]⟩),
    ([], ⟨[("1".toList, "Gain".toList)], []⟩)]

example : (sample.map Prod.fst).Nodup ∧ Apart (sample.map Prod.fst) ∧ inside (sample.map Prod.fst) [] = [[70]] ∧
    inside (sample.map Prod.fst) [70] = [[70, 3]] ∧
    ∃ a b, extra (entries sample) = .ok [.mk [.mk a [("Gain".toList, 8)]] b] ∧ a = [] ∧ b = [("Gain".toList, 5)] := by
  refine ⟨by decide, ?_, by decide, by decide, [], _, rfl, rfl, rfl⟩
  unfold Apart
  decide

/-- The part 12 in the part 345 has an identifier that begins with that of the part 34: it is put into that part as well. -/
theorem C171_fails_clash : ∃ l : List (List Nat × Part Nat), (l.map Prod.fst).Nodup ∧ inside (l.map Prod.fst) [34] = [] ∧
    extra (entries l) = .ok [.mk [.mk [] [("Gain".toList, 8)]] [], .mk [.mk [] [("Gain".toList, 8)]] []] :=
  ⟨[([345, 12], ⟨[], [("1".toList, 8)]⟩), ([345], ⟨[], [("9".toList, 4)]⟩), ([34], ⟨[], [("9".toList, 4)]⟩),
    ([], ⟨[("1".toList, "Gain".toList)], []⟩)], by decide, by decide, rfl⟩

/-- A part in a part whose own values all have names is lost, and if there is no other the file cannot be read. -/
theorem C171_fails_gap : ∃ l : List (List Nat × Part Nat), (∃ x, ([70, 3], x) ∈ l ∧ ("1".toList, 8) ∈ x.values) ∧
    extra (entries l) = .error .keyError :=
  ⟨[([70, 3], ⟨[], [("1".toList, 8)]⟩), ([], ⟨[("1".toList, "Gain".toList)], []⟩)], ⟨_, .head _, .head _⟩, rfl⟩

end Verif.Props.RenishawNested
