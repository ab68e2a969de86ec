import Verif.Model.TrivistaMeta
import Verif.Props.JobinYvonMeta
/-!
C107, first part: the groups and items of TriVista files.
-/
namespace Verif.Props.TrivistaMeta
open Verif.TrivistaMeta

/-- The name of a group. -/
def nameOf : Group → Text
  | .groups n _ => n
  | .items n _ => n

/-- The names in every group are different, on all levels. -/
inductive Distinct : List Group → Prop
  | mk {gs : List Group} : (gs.map nameOf).Nodup → (∀ n l, Group.groups n l ∈ gs → Distinct l) → Distinct gs

/-- The last of the items with a name. -/
def lastItem (k : Text) (l : List (Text × Val)) (v : Val) : Prop :=
  ∃ a b, l = a ++ (k, v) :: b ∧ ∀ e ∈ b, e.1 ≠ k

/-- The file has an item in a group, given by the names of the groups that contain it. -/
inductive Has : List Group → List Text → Text → Val → Prop
  | item {gs n l k v} : Group.items n l ∈ gs → lastItem k l v → Has gs [n] k v
  | group {gs n l p k v} : Group.groups n l ∈ gs → Has l p k v → Has gs (n :: p) k v

/-- The dictionary has an item. -/
inductive Found : List (Text × Info) → List Text → Text → Val → Prop
  | item {d n l k v} : getKw n d = some (.items l) → getKw k l = some v → Found d [n] k v
  | group {d n l p k v} : getKw n d = some (.sub l) → Found l p k v → Found d (n :: p) k v

theorem itemDict_aux {k : Text} {v : Val} : ∀ (l : List (Text × Val)) (d : List (Text × Val)),
    getKw k (l.foldl (fun d e => setKw e.1 e.2 d) d) = some v ↔ lastItem k l v ∨ ((∀ e ∈ l, e.1 ≠ k) ∧ getKw k d = some v)
  | [], d => by simp [lastItem]
  | (k', v') :: l, d => by
    rw [List.foldl_cons, itemDict_aux l, getKw_setKw]
    constructor
    · rintro (⟨a, b, rfl, h⟩ | ⟨h1, h2⟩)
      · exact .inl ⟨(k', v') :: a, b, rfl, h⟩
      · split_ifs at h2 with c
        · injection h2 with h2
          subst c h2
          exact .inl ⟨[], l, rfl, h1⟩
        · refine .inr ⟨?_, h2⟩
          intro e he
          rcases List.mem_cons.1 he with rfl | he
          · exact fun e => c e.symm
          · exact h1 e he
    · rintro (⟨a, b, e, h⟩ | ⟨h1, h2⟩)
      · cases a with
        | nil =>
          simp only [List.nil_append, List.cons.injEq, Prod.mk.injEq] at e
          obtain ⟨⟨rfl, rfl⟩, rfl⟩ := e
          exact .inr ⟨h, by rw [if_pos rfl]⟩
        | cons x a =>
          simp only [List.cons_append, List.cons.injEq] at e
          exact .inl ⟨a, b, e.2, h⟩
      · have hne : k' ≠ k := h1 (k', v') (by simp)
        exact .inr ⟨fun e he => h1 e (by simp [he]), by rw [if_neg (fun e => hne e.symm)]; exact h2⟩

theorem itemDict_iff {k : Text} {v : Val} {l : List (Text × Val)} : getKw k (itemDict l) = some v ↔ lastItem k l v := by
  unfold itemDict
  rw [itemDict_aux]
  simp [getKw]

/-- What becomes of a group. -/
def infoOf : Group → Info
  | .groups _ l => .sub (process l)
  | .items _ l => .items (itemDict l)

theorem entries_distinct : ∀ (gs : List Group) (idx : Nat) (d : List (Text × Info)), (gs.map nameOf).Nodup →
    (∀ g ∈ gs, nameOf g ∉ d.map Prod.fst) → entries idx gs (d, []) = (d ++ gs.map fun g => (nameOf g, infoOf g), [])
  | [], idx, d, _, _ => by simp [entries]
  | g :: gs, idx, d, h1, h2 => by
    rw [List.map_cons, List.nodup_cons] at h1
    have hg := h2 g (by simp)
    have he : entry idx g (d, []) = (d ++ [(nameOf g, infoOf g)], []) := by
      cases g with
      | groups n l =>
        rw [entry]
        show (setKw n (infoOf (.groups n l)) d, []) = _
        have hg : n ∉ d.map Prod.fst := hg
        rw [setKw_new hg]
        rfl
      | items n l =>
        have hg : n ∉ d.map Prod.fst := hg
        rw [entry, addItems]
        simp only [getKw_none hg]
        rw [setKw_new hg]
        rfl
    rw [entries, he, entries_distinct gs (idx + 1) _ h1.2]
    · simp
    · intro g' hg'
      rw [List.map_append, List.mem_append]
      rintro (h | h)
      · exact h2 g' (by simp [hg']) h
      · simp only [List.map_cons, List.map_nil, List.mem_singleton] at h
        exact h1.1 (List.mem_map.2 ⟨g', hg', h⟩)

theorem process_distinct {gs : List Group} (h : (gs.map nameOf).Nodup) : process gs = gs.map fun g => (nameOf g, infoOf g) := by
  unfold process
  rw [entries_distinct gs 0 [] h (by simp)]
  rfl

theorem getKw_mem_iff {α : Type} {k : Text} {v : α} : ∀ {d : List (Text × α)}, (d.map Prod.fst).Nodup → (getKw k d = some v ↔ (k, v) ∈ d)
  | [], _ => by simp [getKw]
  | (k', v') :: d, h => by
    rw [List.map_cons, List.nodup_cons] at h
    unfold getKw
    split_ifs with c
    · subst c
      simp only [List.mem_cons, Prod.mk.injEq, Option.some.injEq]
      constructor
      · rintro rfl; exact .inl ⟨trivial, rfl⟩
      · rintro (⟨_, e⟩ | e)
        · exact e.symm
        · exact absurd (List.mem_map.2 ⟨_, e, rfl⟩) h.1
    · rw [getKw_mem_iff h.2]
      simp only [List.mem_cons, Prod.mk.injEq]
      constructor
      · exact .inr
      · rintro (⟨e, _⟩ | e)
        · exact absurd e.symm c
        · exact e

theorem process_get {gs : List Group} (h : (gs.map nameOf).Nodup) {n : Text} {i : Info} :
    getKw n (process gs) = some i ↔ ∃ g ∈ gs, nameOf g = n ∧ infoOf g = i := by
  rw [process_distinct h, getKw_mem_iff]
  · simp [List.mem_map]
  · rw [List.map_map]
    exact h

/-- C107: if the names in every group are different, every item is found in its group by its name with the
last of its values, and nothing else is found. -/
theorem C107_info {gs : List Group} (h : Distinct gs) (p : List Text) (k : Text) (v : Val) :
    Found (process gs) p k v ↔ Has gs p k v := by
  constructor
  · intro hf
    induction p generalizing gs with
    | nil => cases hf
    | cons n p ih =>
      obtain ⟨h1, h2⟩ := h
      cases hf with
      | item e1 e2 =>
        obtain ⟨g, hg, rfl, e⟩ := (process_get h1).1 e1
        cases g with
        | groups n l => cases e
        | items n l =>
          injection e with e
          subst e
          exact .item hg (itemDict_iff.1 e2)
      | group e1 e2 =>
        obtain ⟨g, hg, rfl, e⟩ := (process_get h1).1 e1
        cases g with
        | items n l => cases e
        | groups n l =>
          injection e with e
          subst e
          exact .group hg (ih (h2 n l hg) e2)
  · intro hh
    induction hh with
    | item hg hl =>
      obtain ⟨h1, h2⟩ := h
      exact .item ((process_get h1).2 ⟨_, hg, rfl, rfl⟩) (itemDict_iff.2 hl)
    | group hg _ ih =>
      obtain ⟨h1, h2⟩ := h
      exact .group ((process_get h1).2 ⟨_, hg, rfl, rfl⟩) (ih (h2 _ _ hg))

/-- Names with numbers. -/
def numbered (name : Text) (i : Nat) : Text := name ++ decChars (i + 1)

theorem numbered_inj {name : Text} {i j : Nat} (h : numbered name i = numbered name j) : i = j := by
  have := decChars_inj (List.append_cancel_left h)
  omega

theorem numbered_ne {name : Text} {i : Nat} : name ≠ numbered name i := by
  intro h
  unfold numbered at h
  exact decChars_ne_nil (i + 1) (List.self_eq_append_right.1 h)

/-- The names of several groups with one name, before the first gets its number. -/
def tagged (name : Text) : Nat → Text
  | 0 => name
  | i + 1 => numbered name (i + 1)

theorem tagged_inj {name : Text} {i j : Nat} (h : tagged name i = tagged name j) : i = j := by
  cases i <;> cases j
  · rfl
  · exact absurd h numbered_ne
  · exact absurd h.symm numbered_ne
  · exact numbered_inj h

theorem entries_same (name : Text) : ∀ (ls : List (List (Text × Val))) (done : List (List (Text × Val))), done ≠ [] →
    ∀ s, s = (if done.length = 1 then [] else [name]) →
    entries done.length (ls.map (Group.items name)) (done.zipIdx.map fun e => (tagged name e.2, .items (itemDict e.1)), s) =
      ((done ++ ls).zipIdx.map fun e => (tagged name e.2, .items (itemDict e.1)), if (done ++ ls).length = 1 then [] else [name])
  | [], done, hd, s, hs => by simp [entries, hs]
  | l :: ls, done, hd, s, hs => by
    rw [List.map_cons, entries, entry, addItems]
    have hname : ∃ i, getKw name (done.zipIdx.map fun e => (tagged name e.2, Info.items (itemDict e.1))) = some i := by
      cases done with
      | nil => exact absurd rfl hd
      | cons x xs =>
        refine ⟨.items (itemDict x), ?_⟩
        rw [List.zipIdx_cons, List.map_cons]
        simp [getKw, tagged]
    obtain ⟨i, hi⟩ := hname
    simp only [hi]
    have hnew : name ++ decChars (done.length + 1) ∉ (done.zipIdx.map fun e => (tagged name e.2, Info.items (itemDict e.1))).map Prod.fst := by
      rw [List.map_map]
      intro h
      obtain ⟨e, he, h⟩ := List.mem_map.1 h
      have hlt : e.2 < done.length := by
        have := List.snd_lt_of_mem_zipIdx he
        omega
      have hpos : 0 < done.length := List.length_pos_iff.2 hd
      have : tagged name e.2 = tagged name done.length := by
        rw [show tagged name done.length = name ++ decChars (done.length + 1) by
          cases hdl : done.length with
          | zero => omega
          | succ m => rfl]
        exact h
      have := tagged_inj this
      omega
    rw [setKw_new hnew]
    have hz : (done.zipIdx.map fun e => (tagged name e.2, Info.items (itemDict e.1))) ++ [(name ++ decChars (done.length + 1), Info.items (itemDict l))] =
        (done ++ [l]).zipIdx.map fun e => (tagged name e.2, Info.items (itemDict e.1)) := by
      rw [List.zipIdx_append, List.map_append]
      congr 1
      have hpos : 0 < done.length := List.length_pos_iff.2 hd
      simp only [List.zipIdx_cons, List.zipIdx_nil, List.map_cons, List.map_nil, Nat.zero_add]
      rw [show tagged name done.length = name ++ decChars (done.length + 1) by
        cases hdl : done.length with
        | zero => omega
        | succ m => rfl]
    have hs' : (if name ∈ s then s else s ++ [name]) = [name] := by
      rw [hs]
      split_ifs with c1 c2 <;> simp_all
    rw [hz, hs']
    have hl : done.length + 1 = (done ++ [l]).length := by simp
    rw [hl, entries_same name ls (done ++ [l]) (by simp) [name] (by
      have hpos : 0 < done.length := List.length_pos_iff.2 hd
      rw [if_neg (by simp; omega)])]
    simp

/-- C107: several groups of items with one name, and no others beside them, are found by this name with
the numbers from one on. -/
theorem C107_same {name : Text} {ls : List (List (Text × Val))} (h : 2 ≤ ls.length) (k : Text) (v : Val) (n : Text) :
    Found (process (ls.map (Group.items name))) [n] k v ↔ ∃ i l, ls[i]? = some l ∧ n = numbered name i ∧ lastItem k l v := by
  have hp : process (ls.map (Group.items name)) =
      setKw (numbered name 0) (.items (itemDict (ls.headD []))) (ls.tail.zipIdx.map fun e => (numbered name (e.2 + 1), .items (itemDict e.1))) := by
    cases ls with
    | nil => simp at h
    | cons l ls =>
      unfold process
      rw [List.map_cons, entries, entry, addItems]
      simp only [getKw]
      rw [show setKw name (Info.items (itemDict l)) [] = [l].zipIdx.map fun e => (tagged name e.2, Info.items (itemDict e.1)) from rfl]
      have := entries_same name ls [l] (by simp) [] (by simp)
      rw [List.length_singleton] at this
      simp only [Nat.zero_add]
      rw [this]
      simp only [List.length_cons] at h
      rw [if_neg (by rw [List.length_append, List.length_singleton]; omega)]
      simp only [List.foldl_cons, List.foldl_nil]
      unfold renameFirst
      have hz : (([l] ++ ls).zipIdx.map fun e => (tagged name e.2, Info.items (itemDict e.1))) =
          (name, Info.items (itemDict l)) :: (ls.zipIdx.map fun e => (numbered name (e.2 + 1), Info.items (itemDict e.1))) := by
        rw [List.singleton_append, List.zipIdx_cons, List.map_cons]
        congr 1
        rw [List.zipIdx_succ, List.map_map]
        rfl
      rw [hz]
      simp only [getKw, if_true]
      have hd : delKw name ((name, Info.items (itemDict l)) :: (ls.zipIdx.map fun e => (numbered name (e.2 + 1), Info.items (itemDict e.1)))) =
          ls.zipIdx.map fun e => (numbered name (e.2 + 1), Info.items (itemDict e.1)) := by
        unfold delKw
        rw [List.filter_cons, if_neg (by simp), List.filter_eq_self]
        intro e he
        obtain ⟨x, _, rfl⟩ := List.mem_map.1 he
        exact decide_eq_true (fun e => numbered_ne e.symm)
      rw [hd]
      rfl
  have hnot : numbered name 0 ∉ (ls.tail.zipIdx.map fun e => (numbered name (e.2 + 1), Info.items (itemDict e.1))).map Prod.fst := by
    rw [List.map_map]
    intro h
    obtain ⟨e, _, h⟩ := List.mem_map.1 h
    have := numbered_inj h
    omega
  have hnd : ((ls.tail.zipIdx.map fun e => (numbered name (e.2 + 1), Info.items (itemDict e.1))).map Prod.fst).Nodup := by
    rw [List.map_map]
    have : (Prod.fst ∘ fun e : List (Text × Val) × Nat => (numbered name (e.2 + 1), Info.items (itemDict e.1))) =
        (fun i => numbered name (i + 1)) ∘ Prod.snd := rfl
    rw [this, ← List.map_map, List.zipIdx_map_snd]
    refine List.Nodup.map (fun i j e => by have := numbered_inj e; omega) List.nodup_range'
  have hget : ∀ (m : Text) (i : Info), getKw m (process (ls.map (Group.items name))) = some i ↔
      ∃ j l, ls[j]? = some l ∧ m = numbered name j ∧ i = .items (itemDict l) := by
    intro m i
    rw [hp, getKw_setKw]
    cases ls with
    | nil => simp at h
    | cons l0 ls =>
      simp only [List.headD_cons, List.tail_cons] at *
      split_ifs with c
      · subst c
        constructor
        · intro e
          injection e with e
          exact ⟨0, l0, rfl, rfl, e.symm⟩
        · rintro ⟨j, l, e1, e2, rfl⟩
          have := numbered_inj e2
          subst this
          injection e1 with e1
          rw [e1]
      · rw [getKw_mem_iff hnd, List.mem_map]
        constructor
        · rintro ⟨e, he, e2⟩
          injection e2 with e2 e3
          refine ⟨e.2 + 1, e.1, ?_, e2.symm, e3.symm⟩
          rw [List.getElem?_cons_succ]
          exact List.mem_zipIdx_iff_getElem?.1 he
        · rintro ⟨j, l, e1, rfl, rfl⟩
          cases j with
          | zero => exact absurd rfl c
          | succ j =>
            exact ⟨(l, j), List.mem_zipIdx_iff_getElem?.2 e1, rfl⟩
  constructor
  · intro hf
    cases hf with
    | item e1 e2 =>
      obtain ⟨j, l, h1, h2, h3⟩ := (hget _ _).1 e1
      injection h3 with h3
      subst h3
      exact ⟨j, l, h1, h2, itemDict_iff.1 e2⟩
    | group e1 e2 => cases e2
  · rintro ⟨j, l, h1, h2, h3⟩
    exact .item ((hget _ _).2 ⟨j, l, h1, h2, rfl⟩) (itemDict_iff.2 h3)

end Verif.Props.TrivistaMeta
