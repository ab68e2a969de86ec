import Verif.Props.EmdNcem
import Verif.Lemmas.EmdNcemWrite
/-! Property C112: EMD files of the Berkeley variant, written and read again. -/
namespace Verif.Props.EmdNcem
open Verif Verif.EmdNcem Verif.Spec.EmdNcem Verif.Lemmas.EmdNcem
open Verif.Props.SignalChunks (RootOk)

/-- The title in the file. -/
def fileTitle (s : In) : Text := if s.title = [] then "__unnamed__".toList else s.title

theorem part_title {s : In} (h : '/' ∉ s.title ∧ s.title ≠ ['.']) : Part (fileTitle s) := by
  unfold fileTitle
  split
  · exact ⟨by decide, by decide, by decide⟩
  · rename_i h0
    exact ⟨h0, h.2, h.1⟩

theorem groupParts_ok {s : In} (h : '/' ∉ s.title ∧ s.title ≠ ['.']) : groupParts s.title = ["signals".toList, fileTitle s] := by
  have hp := part_title h
  unfold groupParts
  show (if (fileTitle s).head? = some '/' then _ else _) = _
  rw [if_neg]
  · show "signals".toList :: parts (fileTitle s) = _
    have := parts_join (ps := [fileTitle s]) (by simp) (by simpa using hp)
    rw [joinWith] at this
    rw [this]
  · intro e
    apply hp.2.2
    cases hx : fileTitle s with
    | nil => rw [hx] at e; simp at e
    | cons c l => rw [hx] at e; simp at e; simp [e]

theorem path_group {s : In} (h : '/' ∉ s.title ∧ s.title ≠ ['.']) : Path (signalGroup s) :=
  path_inside (path_part (p := "signals".toList) ⟨by decide, by decide, by decide⟩) (part_title h)

theorem chunks_ok {env : Env} {s : In} {arg : ChunkArg} (hr : RootOk env.root) (hw : Writable env s) :
    ∃ c, chunksFor env s s.arr.shape.reverse arg = .ok c ∧ ChunksFit s arg c := by
  cases arg with
  | auto => exact ⟨.auto, rfl, fun _ => rfl, by simp, by simp, by simp⟩
  | given l => exact ⟨.shape l.reverse, rfl, by simp, by simp, by simp, by simp⟩
  | none =>
    unfold chunksFor
    cases hd : s.dask with
    | some c => exact ⟨_, rfl, by simp, by simp, fun _ l hl => by rw [hd] at hl; cases hl; rfl, fun _ e => by rw [hd] at e; simp at e⟩
    | none =>
      dsimp only
      obtain ⟨r, h1, h2, h3⟩ := Verif.Props.SignalChunks.C19_valid_chunks_partial env.root hr s.arr.shape.reverse s.itemsize (some (signalAxes s.axes)) 1000000
        (fun n hn => hw.pos n (by simpa using hn)) hw.item (by
          intro sig hs i hi
          cases hs
          unfold signalAxes at hi
          rw [List.mem_filter, List.mem_range] at hi
          rw [List.length_reverse, ← hw.axes]
          exact hi.1)
      refine ⟨r, h1, by simp, by simp, fun _ l hl => by rw [hd] at hl; simp at hl, fun _ _ => ?_⟩
      cases r with
      | auto => exact absurd (h2.1 rfl) (by simp)
      | shape l =>
        have := h3 _ _ rfl rfl
        refine ⟨l, rfl, by rw [this.1, List.length_reverse], fun i a n ha hn => ?_⟩
        have := this.2 i a n ha hn
        exact ⟨this.1, this.2.1⟩

/-- The dimensions in the file, by their numbers. -/
def dimEntries (env : Env) (s : In) : List (Text × Obj) :=
  (List.range s.axes.length).map fun i => (inside (signalGroup s) (dim (s.axes.length - i)), .dset (dimDset env (s.axes.getD i ⟨none, none, 0, 0, false⟩)))

theorem dims_ok {env : Env} {s : In} (hg : Path (signalGroup s)) : dimObjects env (signalGroup s) s.axes.length s.axes = .ok (dimEntries env s) := by
  unfold dimObjects dimEntries
  have e : (List.range s.axes.length).zip ((List.range s.axes.length).map (· + 1)).reverse =
      (List.range s.axes.length).map fun i => (i, s.axes.length - i) := by
    apply List.ext_getElem?
    intro i
    rw [List.getElem?_map]
    by_cases hi : i < s.axes.length
    · rw [List.getElem?_range hi]
      show _ = some (i, s.axes.length - i)
      rw [List.getElem?_zip_eq_some]
      refine ⟨List.getElem?_range hi, ?_⟩
      rw [List.getElem?_reverse (by simpa using hi)]
      simp only [List.length_map, List.length_range]
      rw [List.getElem?_map, List.getElem?_range (by omega)]
      simp
      omega
    · rw [List.getElem?_eq_none (by simp; omega), List.getElem?_eq_none (by simp; omega)]
      rfl
  rw [e, mapM_map']
  apply Verif.Props.JobinYvon.mapM_ok
  intro i hi
  rw [List.mem_range] at hi
  dsimp only
  rw [List.getElem?_eq_getElem hi]
  dsimp only
  unfold inGroup child
  rw [if_neg (path_ne_nil hg), dimName_eq, List.getD_eq_getElem?_getD, List.getElem?_eq_getElem hi]
  rfl

/-- The groups at the root. -/
def rootEntries (att : Text → Attrs) : List (Text × Obj) :=
  (groupNames.map fun n => (n, .group (att n))) ++ [("signals".toList, .group [("emd_group_type".toList, .num 1)])]

/-- The entries of the file. -/
def fileEntries (env : Env) (s : In) (att : Text → Attrs) (a : Attrs) (c : SignalChunks.Chunks) : List (Text × Obj) :=
  rootEntries att ++ [(signalGroup s, .group a)] ++ (inside (signalGroup s) "data".toList, .dset ⟨[], true, transpose s.arr, c⟩) :: dimEntries env s

theorem slash_inside (g n : Text) : '/' ∈ inside g n := by
  unfold inside
  simp

theorem noslash {s : In} {es : List (Text × Obj)} (h : ∀ e ∈ es, '/' ∉ e.1) : signalGroup s ∉ es.map Prod.fst := by
  intro hx
  obtain ⟨e, he, hk⟩ := List.mem_map.1 hx
  apply h e he
  rw [hk]
  exact slash_inside _ _

theorem base_slash {att : Text → Attrs} : ∀ e ∈ rootEntries att, '/' ∉ e.1 := by
  intro e he
  unfold rootEntries at he
  rcases List.mem_append.1 he with he | he
  · obtain ⟨n, hn, rfl⟩ := List.mem_map.1 he
    exact (by decide : ∀ n ∈ groupNames, '/' ∉ n) n hn
  · rw [List.mem_singleton] at he
    subst he
    decide

theorem write_ok {env : Env} {name : Text} {s : In} {arg : ChunkArg} (hr : RootOk env.root) (hw : Writable env s) :
    ∃ att a c, write env name s arg = .ok ⟨name, [("version_major".toList, .str "0".toList), ("version_minor".toList, .str "2".toList)],
      fileEntries env s att a c⟩ ∧ (∀ n ∈ groupNames, Kept s n (att n)) ∧ ChunksFit s arg c ∧
      getKw "emd_group_type".toList a = some (.num 1) ∧
      ∀ k v, k ≠ "emd_group_type".toList → (getKw k a = some v ↔ ∃ d₁ d₂, s.signal = d₁ ++ (k, some v) :: d₂ ∧ ∀ w, (k, some w) ∉ d₂) := by
  obtain ⟨att, ho, hk⟩ := omObjects_ok hw.original
  obtain ⟨c, hc, hf⟩ := chunks_ok (arg := arg) hr hw
  have hg := path_group hw.title
  have hno := noslash (s := s) (base_slash (att := att))
  obtain ⟨a, ha, hl⟩ := setSignal_last (sig := s.signal) (a := [("emd_group_type".toList, .num 1)]) hno
  refine ⟨att, a, c, ?_, hk, hf, ?_, ?_⟩
  · unfold write
    have hshape : (transpose s.arr).shape = s.arr.shape.reverse := rfl
    have hd := dims_ok (env := env) hg
    have hpath : joinWith ['/'] ["signals".toList, fileTitle s] = signalGroup s := by
      have : ∀ a b : Text, joinWith ['/'] [a, b] = inside a b := by
        intro a b
        rw [joinWith, joinWith]
        simp [inside]
      exact this _ _
    have hreq : requireGroup [] ["signals".toList, fileTitle s] (rootEntries att) = rootEntries att ++ [(signalGroup s, .group [])] := by
      have hsig : (getKw "signals".toList (rootEntries att)).isSome = true := by
        unfold rootEntries
        rw [getKw_app_right]
        · rfl
        · rw [List.map_map]
          exact (by decide : "signals".toList ∉ groupNames.map id)
      have hnone : (getKw (signalGroup s) (rootEntries att)).isSome = false := by rw [getKw_none hno]; rfl
      rw [requireGroup, requireGroup, requireGroup]
      rw [List.nil_append, List.singleton_append, hpath]
      have e1 : joinWith ['/'] ["signals".toList] = "signals".toList := rfl
      rw [e1, if_pos hsig, hnone]
      rfl
    have ho' : (groupNames.map fun n => (n, Obj.group (att n))) ++ [("signals".toList, .group [("emd_group_type".toList, .num 1)])] =
      rootEntries att := rfl
    simp only [ho, bind, Except.bind, groupParts_ok hw.title, ho']
    rw [hpath, hreq, hshape, hc]
    dsimp only
    rw [List.length_reverse, ← hw.axes, hd]
    dsimp only
    rw [setAttr_last hno]
    have e1 : setKw "emd_group_type".toList (.num 1) ([] : Attrs) = [("emd_group_type".toList, .num 1)] := rfl
    rw [e1, ha]
    unfold inGroup
    rw [if_neg (path_ne_nil hg)]
    rfl
  · rw [hl]
    refine .inr ⟨fun w hw' => hw.signal _ hw' rfl, rfl⟩
  · intro k v hne
    rw [hl]
    constructor
    · rintro (h | ⟨_, h⟩)
      · exact h
      · rw [getKw, if_neg (fun e => hne e.symm)] at h
        simp [getKw] at h
    · exact .inl

theorem inside_ne (g n : Text) : inside g n ≠ g := by
  intro h
  have := congrArg List.length h
  simp [inside] at this

theorem inside_inj {g n m : Text} (h : inside g n = inside g m) : n = m := by
  unfold inside at h
  exact (List.cons.inj (List.append_cancel_left h)).2

theorem data_ne_dim (i : Nat) : "data".toList ≠ dim i := by
  intro h
  have := (List.cons.inj (List.cons.inj h).2).1
  revert this
  decide

section Entries
variable {env : Env} {s : In} {att : Text → Attrs} {a : Attrs} {c : SignalChunks.Chunks}

theorem entries_names {n : Text} (h : n ∈ groupNames) : getKw n (fileEntries env s att a c) = some (.group (att n)) := by
  unfold fileEntries rootEntries
  apply getKw_app_left
  apply getKw_app_left
  apply getKw_app_left
  exact getKw_map_fun (key := id) (val := fun n => Obj.group (att n)) (fun b _ e => e) h

theorem slash_not_root {p : Text} (h : '/' ∈ p) : p ∉ (rootEntries att).map Prod.fst := by
  intro hx
  obtain ⟨e, he, hk⟩ := List.mem_map.1 hx
  exact base_slash e he (hk ▸ h)

theorem entries_group : getKw (signalGroup s) (fileEntries env s att a c) = some (.group a) := by
  unfold fileEntries
  apply getKw_app_left
  have : signalGroup s ∉ (rootEntries att).map Prod.fst := slash_not_root (slash_inside _ _)
  rw [getKw_app_right this, getKw, if_pos rfl]

theorem entries_inside {n : Text} : getKw (inside (signalGroup s) n) (fileEntries env s att a c) =
    if n = "data".toList then some (.dset ⟨[], true, transpose s.arr, c⟩) else getKw (inside (signalGroup s) n) (dimEntries env s) := by
  unfold fileEntries
  rw [getKw_app_right, getKw]
  · split
    · rename_i h
      rw [if_pos (inside_inj h).symm]
    · rename_i h
      rw [if_neg]
      rintro rfl
      exact h rfl
  · rw [List.map_append, List.mem_append, not_or]
    refine ⟨slash_not_root (slash_inside _ _), ?_⟩
    rw [List.map_singleton, List.mem_singleton]
    exact inside_ne _ _

theorem entries_data : getKw (inside (signalGroup s) "data".toList) (fileEntries env s att a c) = some (.dset ⟨[], true, transpose s.arr, c⟩) := by
  rw [entries_inside, if_pos rfl]

theorem entries_dim {i : Nat} {x : InAxis} (h : s.axes[i]? = some x) :
    getKw (inside (signalGroup s) (dim (s.axes.length - i))) (fileEntries env s att a c) = some (.dset (dimDset env x)) := by
  have hi : i < s.axes.length := (List.getElem?_eq_some_iff.1 h).1
  rw [entries_inside, if_neg (fun e => data_ne_dim _ e.symm)]
  unfold dimEntries
  rw [getKw_map_fun (key := fun i => inside (signalGroup s) (dim (s.axes.length - i)))
    (val := fun i => Obj.dset (dimDset env (s.axes.getD i ⟨none, none, 0, 0, false⟩)))]
  · rw [List.getD_eq_getElem?_getD, h]
    rfl
  · intro b hb e
    have := dim_inj (inside_inj e)
    rw [List.mem_range] at hb
    omega
  · exact List.mem_range.2 hi

theorem entries_zero : getKw (inside (signalGroup s) (dim 0)) (fileEntries env s att a c) = none := by
  rw [entries_inside, if_neg (fun e => data_ne_dim _ e.symm)]
  apply getKw_none
  intro h
  unfold dimEntries at h
  rw [List.map_map, List.mem_map] at h
  obtain ⟨i, hi, e⟩ := h
  have := dim_inj (inside_inj e)
  rw [List.mem_range] at hi
  omega

theorem entries_mem {e : Text × Obj} (h : e ∈ fileEntries env s att a c) :
    (e ∈ rootEntries att) ∨ e = (signalGroup s, .group a) ∨ e = (inside (signalGroup s) "data".toList, .dset ⟨[], true, transpose s.arr, c⟩) ∨
      ∃ i d, e = (inside (signalGroup s) (dim i), .dset d) := by
  unfold fileEntries at h
  rw [List.mem_append, List.mem_append, List.mem_singleton, List.mem_cons] at h
  rcases h with (h | h) | h | h
  · exact .inl h
  · exact .inr (.inl h)
  · exact .inr (.inr (.inl h))
  · unfold dimEntries at h
    obtain ⟨i, _, rfl⟩ := List.mem_map.1 h
    exact .inr (.inr (.inr ⟨_, _, rfl⟩))

theorem entries_none {k : Text} (h : '/' ∉ k) (h' : k ∉ "signals".toList :: groupNames) : getKw k (fileEntries env s att a c) = none := by
  apply getKw_none
  intro hx
  obtain ⟨e, he, rfl⟩ := List.mem_map.1 hx
  rcases entries_mem he with he | rfl | rfl | ⟨i, d, rfl⟩
  · unfold rootEntries at he
    rcases List.mem_append.1 he with he | he
    · obtain ⟨n, hn, rfl⟩ := List.mem_map.1 he
      exact h' (List.mem_cons_of_mem _ hn)
    · rw [List.mem_singleton] at he
      subst he
      exact h' (List.mem_cons_self)
  · exact h (slash_inside _ _)
  · exact h (slash_inside _ _)
  · exact h (slash_inside _ _)

theorem root_group {e : Text × Obj} (h : e ∈ rootEntries att) : Path e.1 ∧ ∀ d, e.2 ≠ .dset d := by
  unfold rootEntries at h
  rcases List.mem_append.1 h with h | h
  · obtain ⟨n, hn, rfl⟩ := List.mem_map.1 h
    refine ⟨path_part ?_, fun d => by simp⟩
    have : ∀ n ∈ groupNames, n ≠ [] ∧ n ≠ ['.'] ∧ '/' ∉ n := by decide
    exact this n hn
  · rw [List.mem_singleton] at h
    subst h
    exact ⟨path_part ⟨by decide, by decide, by decide⟩, fun d => by simp⟩

theorem dim_not_data (i : Nat) : ¬ DataName (dim i) := by
  rintro ⟨w, hw, h⟩
  have h2 : ∀ w ∈ Spec.EmdNcem.words, ∃ c l, w.toList = c :: l ∧ (c ≠ 'd' ∨ ∃ c' l', l = c' :: l' ∧ (c' ≠ 'i' ∨ ∃ c'' l'', l' = c'' :: l'' ∧ c'' ≠ 'm')) := by
    intro w hw
    simp only [Spec.EmdNcem.words, List.mem_cons, List.not_mem_nil, or_false] at hw
    rcases hw with rfl | rfl | rfl | rfl | rfl | rfl | rfl
    · exact ⟨_, _, rfl, .inr ⟨_, _, rfl, .inl (by decide)⟩⟩
    · exact ⟨_, _, rfl, .inl (by decide)⟩
    · exact ⟨_, _, rfl, .inr ⟨_, _, rfl, .inl (by decide)⟩⟩
    · exact ⟨_, _, rfl, .inr ⟨_, _, rfl, .inr ⟨_, _, rfl, by decide⟩⟩⟩
    · exact ⟨_, _, rfl, .inl (by decide)⟩
    · exact ⟨_, _, rfl, .inl (by decide)⟩
    · exact ⟨_, _, rfl, .inl (by decide)⟩
  obtain ⟨c, l, e, h3⟩ := h2 w hw
  obtain ⟨t, ht⟩ := h
  rw [e] at ht
  unfold dim at ht
  have h4 := List.cons.inj ht
  rcases h3 with h3 | ⟨c', l', rfl, h3⟩
  · exact h3 h4.1
  · have h5 := List.cons.inj h4.2
    rcases h3 with h3 | ⟨c'', l'', rfl, h3⟩
    · exact h3 h5.1
    · exact h3 (List.cons.inj h5.2).1

theorem data_name : DataName "data".toList := ⟨"data", by simp [Spec.EmdNcem.words], List.prefix_refl _⟩

theorem written_ordered (hg : Path (signalGroup s)) (ha : getKw "emd_group_type".toList a = some (.num 1)) {name : Text} {fa : Attrs} :
    Ordered ⟨name, fa, fileEntries env s att a c⟩ := by
  have hdata : Part "data".toList := ⟨by decide, by decide, by decide⟩
  constructor
  · intro e he
    rcases entries_mem he with he | rfl | rfl | ⟨i, d, rfl⟩
    · exact (root_group he).1
    · exact hg
    · exact path_inside hg hdata
    · exact path_inside hg (part_dim i)
  · intro p d he n hl hn
    rcases entries_mem he with he | he | he | ⟨i, d', he⟩
    · exact absurd rfl ((root_group he).2 d)
    · exact absurd (Prod.mk.inj he).2 (by simp)
    · have hp := (Prod.mk.inj he).1
      have : n = "data".toList := by
        rw [← basename_last hl, hp, basename_inside hdata.2.2]
      subst this
      refine ⟨signalGroup s, a, hp, .inl entries_group, fun v hv => ?_⟩
      rw [ha] at hv
      cases hv
      intro x y l hx
      simp at hx
    · have hp := (Prod.mk.inj he).1
      have : n = dim i := by
        rw [← basename_last hl, hp, basename_inside (part_dim i).2.2]
      subst this
      exact absurd hn (dim_not_data i)

theorem last_inside {g g' n m : Text} (hn : '/' ∉ n) (hm : '/' ∉ m) (h : inside g n = inside g' m) : n = m := by
  rw [← basename_inside (g := g) hn, h, basename_inside hm]

theorem written_data (hg : Path (signalGroup s)) (ha : getKw "emd_group_type".toList a = some (.num 1)) {name : Text} {fa : Attrs} :
    AllData ⟨name, fa, fileEntries env s att a c⟩ [inside (signalGroup s) "data".toList] := by
  unfold AllData
  classical
  have hdata : Part "data".toList := ⟨by decide, by decide, by decide⟩
  show _ = ((fileEntries env s att a c).filter _).map _
  have hyes : IsData ⟨name, fa, fileEntries env s att a c⟩ (inside (signalGroup s) "data".toList) (.dset ⟨[], true, transpose s.arr, c⟩) :=
    ⟨⟨_, rfl⟩, _, _, a, .num 1, rfl, hdata.2.2, data_name, .inl entries_group, ha, .inr (.inr (.inl ⟨1, rfl, by norm_num⟩))⟩
  have hroot : ∀ e ∈ rootEntries att, ¬ IsData ⟨name, fa, fileEntries env s att a c⟩ e.1 e.2 := fun e he h => by
    obtain ⟨⟨d, hd⟩, _⟩ := h
    exact (root_group he).2 d hd
  have hsg : ¬ IsData ⟨name, fa, fileEntries env s att a c⟩ (signalGroup s) (.group a) := by
    rintro ⟨⟨d, hd⟩, _⟩
    simp at hd
  have hdim : ∀ e ∈ dimEntries env s, ¬ IsData ⟨name, fa, fileEntries env s att a c⟩ e.1 e.2 := by
    intro e he h
    unfold dimEntries at he
    obtain ⟨i, _, rfl⟩ := List.mem_map.1 he
    obtain ⟨_, g, n, _, _, hp, hn, hd, _⟩ := h
    rw [last_inside (part_dim _).2.2 hn hp |>.symm] at hd
    exact dim_not_data _ hd
  have hall : ∀ P : Text × Obj → Prop, (∀ e ∈ rootEntries att, ¬ P e) → ¬ P (signalGroup s, .group a) →
      P (inside (signalGroup s) "data".toList, .dset ⟨[], true, transpose s.arr, c⟩) → (∀ e ∈ dimEntries env s, ¬ P e) →
      (fileEntries env s att a c).filter (fun e => decide (P e)) = [(inside (signalGroup s) "data".toList, .dset ⟨[], true, transpose s.arr, c⟩)] := by
    intro P h1 h2 h3 h4
    unfold fileEntries
    have e1 : (rootEntries att).filter (fun e => decide (P e)) = [] := List.filter_eq_nil_iff.2 fun e he => by simpa using h1 e he
    have e2 : (dimEntries env s).filter (fun e => decide (P e)) = [] := List.filter_eq_nil_iff.2 fun e he => by simpa using h4 e he
    rw [List.filter_append, List.filter_append, e1, List.filter_cons, if_neg (by simpa using h2), List.filter_cons, if_pos (by simpa using h3), e2]
    rfl
  have := hall (fun e => IsData ⟨name, fa, fileEntries env s att a c⟩ e.1 e.2) hroot hsg hyes hdim
  simp only [this, List.map_cons, List.map_nil]

/-- The dataset that is written. -/
def recOf (env : Env) (s : In) : Rec :=
  ⟨signalGroup s, "data".toList, s.arr.shape.reverse, fun idx => s.arr.at idx.reverse, s.axes.reverse.map (toDim env)⟩

theorem written_zero {name : Text} {fa : Attrs} : ¬ FromZero ⟨name, fa, fileEntries env s att a c⟩ (signalGroup s) := by
  intro h
  exact h entries_zero

theorem written_holds (hm : ∀ x, env.mean [x] = x) (hw : Writable env s) {name : Text} {fa : Attrs} :
    Holds env ⟨name, fa, fileEntries env s att a c⟩ (recOf env s) := by
  have hdata : Part "data".toList := ⟨by decide, by decide, by decide⟩
  refine ⟨⟨path_group hw.title, hdata, by simpa [recOf] using hw.shape, _, entries_data, rfl⟩, ?_, ?_⟩
  · simp [recOf, hw.axes]
  · intro j x hx
    refine ⟨fun h => absurd h written_zero, fun _ => ?_⟩
    simp only [recOf, List.getElem?_map] at hx
    obtain ⟨y, hy, rfl⟩ := Option.map_eq_some_iff.1 hx
    have hj : j < s.axes.length := by simpa using (List.getElem?_eq_some_iff.1 hy).1
    rw [List.getElem?_reverse hj] at hy
    have hmem : y ∈ s.axes := List.mem_of_getElem? hy
    refine dimDset_ok hm (hw.scale y hmem) (hw.units y hmem) ?_
    have := entries_dim (env := env) (att := att) (a := a) (c := c) hy
    rwa [show s.axes.length - (s.axes.length - 1 - j) = j + 1 by omega] at this

theorem back_ok (hw : Writable env s) (hk : ∀ n ∈ groupNames, Kept s n (att n)) {name : Text} {r : Sig}
    (hs : Shows ⟨name, [("version_major".toList, .str "0".toList), ("version_minor".toList, .str "2".toList)], fileEntries env s att a c⟩ (recOf env s) r)
    (hm : ShowsMeta ⟨name, [("version_major".toList, .str "0".toList), ("version_minor".toList, .str "2".toList)], fileEntries env s att a c⟩
      (signalGroup s) (signalGroup s) r) : Back env s r := by
  obtain ⟨h1, h2, h3, h4, h5⟩ := hs
  obtain ⟨m1, -, -, -, m5, m6, -⟩ := hm
  have hrev : Reversed ⟨name, [("version_major".toList, .str "0".toList), ("version_minor".toList, .str "2".toList)], fileEntries env s att a c⟩ (recOf env s) :=
    ⟨written_zero, by show "data".toList ≠ "datacube".toList; decide⟩
  have hshape : r.arr.shape = s.arr.shape := by
    rw [h1.1 hrev]
    exact List.reverse_reverse _
  have hlast : Last (signalGroup s) (fileTitle s) := ⟨(part_title hw.title).2.2, .inr ⟨_, rfl⟩⟩
  refine ⟨?_, ?_, ?_, ?_, ?_, ?_, ?_⟩
  · have hd : r.arr.data = s.arr.data := by
      apply List.ext_getElem?
      intro p
      by_cases hp : p < size s.arr.shape
      · obtain ⟨idx, hb, rfl⟩ := flatIndex_surj hp
        have := h3 idx.reverse idx (inBounds_reverse hb) ⟨fun _ => (List.reverse_reverse _).symm, fun h => absurd hrev h⟩
        rw [hshape] at this
        rw [this]
        show some (s.arr.at idx.reverse.reverse) = _
        rw [List.reverse_reverse]
        unfold Arr.at
        rw [List.getD_eq_getElem?_getD, List.getElem?_eq_getElem (by rw [hw.data]; exact hp)]
        rfl
      · rw [List.getElem?_eq_none (by rw [h2, hshape]; omega), List.getElem?_eq_none (by rw [hw.data]; omega)]
    cases hr : r.arr with
    | mk sh da =>
      rw [hr] at hshape hd
      dsimp only at hshape hd
      rw [hshape, hd]
  · rw [h4, hw.axes]
    exact List.length_reverse
  · intro i x hx
    have hi : i < s.axes.length := (List.getElem?_eq_some_iff.1 hx).1
    have hn : s.arr.shape.length = s.axes.length := hw.axes.symm
    obtain ⟨b, hb, e1, e2, e3, e4, e5, e6, -⟩ := h5 (s.axes.length - 1 - i) i (toDim env x) (by
      simp only [recOf, List.getElem?_map]
      rw [List.getElem?_reverse (by omega), show s.axes.length - 1 - (s.axes.length - 1 - i) = i by omega, hx]
      rfl) ⟨fun _ => by
        show i + (s.axes.length - 1 - i) + 1 = s.arr.shape.reverse.length
        rw [List.length_reverse]; omega, fun h => absurd hrev h⟩
    have hsz : s.arr.shape[i]? = some b.size := by
      rw [e4]
      show _ = s.arr.shape.reverse[_]?
      rw [List.getElem?_reverse (by omega)]
      congr 1
      omega
    refine ⟨b, b.size, hb, hsz, e1, rfl, e5, e6, ?_, ?_, _, e3, ?_, ?_⟩
    · intro t ht; rw [e2]; show some (x.name.getD []) = _; rw [ht]; rfl
    · intro ht; rw [e2]; show some (x.name.getD []) = _; rw [ht]; rfl
    · intro u hu
      rw [hu]
      exact canon_getD' env u
    · intro hu
      rw [hu]
      exact canon_getD' env []
  · intro h0 hd
    have : fileTitle s = s.title := by unfold fileTitle; rw [if_neg h0]
    rw [this] at hlast
    exact m1 _ _ hlast (.inl ⟨hd, rfl⟩)
  · intro h0
    have : fileTitle s = "__unnamed__".toList := by unfold fileTitle; rw [if_pos h0]
    rw [this] at hlast
    refine m1 _ _ hlast (.inl ⟨?_, rfl⟩)
    rw [← inText_iff]
    decide
  · exact m5 _ _ rfl rfl
  · intro n hn
    exact ⟨att n, (m6 n (att n)).2 ⟨hn, .inl (entries_names hn)⟩, hk n hn⟩

end Entries

/-- **C112 (partial)**: writing a signal to an EMD file and reading the file gives the same array, the same axes with name, units, offset
and scale, the title, and the attributes of the four groups of the original metadata; with and without stacking, and for all chunks.
The dataset in the file has its axes in reverse order, with chunks that fit. Missing: what is not kept is the navigation flag
(`C112_fails_navigate`), the type of the signal (`C112_fails_type`), units that are empty or have underscores or brackets
(`C112_fails_empty_units`, `C112_fails_units`), titles with slashes or with `_depth` (`C112_fails_slash`, `C112_fails_depth`),
and scales that are lost by rounding (`C112_fails_scale`). -/
theorem C112_roundtrip_partial {env : Env} {velox : File → Py (List Sig)} {name : Text} {s : In} {arg : ChunkArg} {st : Option Bool}
    (hm : ∀ x, env.mean [x] = x) (hr : RootOk env.root) (hw : Writable env s) :
    ∃ f r, write env name s arg = .ok f ∧ Stores s arg f ∧ fileReader env velox f .none st = .ok [r] ∧ Back env s r := by
  obtain ⟨att, a, c, hf, hk, hc, ha, hl⟩ := write_ok (name := name) (arg := arg) hr hw
  have hg := path_group hw.title
  have hnv : NotVelox env ⟨name, [("version_major".toList, .str "0".toList), ("version_minor".toList, .str "2".toList)], fileEntries env s att a c⟩ :=
    .inl (entries_none (by decide) (by decide))
  have hb : Berkeley ⟨name, [("version_major".toList, .str "0".toList), ("version_minor".toList, .str "2".toList)], fileEntries env s att a c⟩ :=
    .inl ⟨_, _, rfl, rfl⟩
  have hnp : ¬ Prismatic ⟨name, [("version_major".toList, .str "0".toList), ("version_minor".toList, .str "2".toList)], fileEntries env s att a c⟩ :=
    fun h => h (entries_none (by decide) (by decide))
  have hcp : Complete ⟨name, [("version_major".toList, .str "0".toList), ("version_minor".toList, .str "2".toList)], fileEntries env s att a c⟩ :=
    fun h => absurd h hnp
  have hh := written_holds (a := a) (c := c) (att := att) hm hw (name := name) (fa := [("version_major".toList, .str "0".toList), ("version_minor".toList, .str "2".toList)])
  have hst : Stores s arg ⟨name, [("version_major".toList, .str "0".toList), ("version_minor".toList, .str "2".toList)], fileEntries env s att a c⟩ := by
    refine ⟨rfl, rfl, ⟨_, entries_data, rfl, ?_, ?_, hc⟩, a, entries_group, ha, hl⟩
    · show (ravel s.arr.shape.reverse _).length = _
      rw [length_ravel, size_reverse]
    · intro idx v hb hv
      show (ravel s.arr.shape.reverse _)[flatIndex s.arr.shape.reverse idx.reverse]? = _
      rw [ravel_getElem _ (inBounds_reverse hb), List.reverse_reverse]
      unfold Arr.at
      rw [List.getD_eq_getElem?_getD, hv]
      rfl
  have hord := written_ordered (env := env) (att := att) (c := c) hg ha (name := name) (fa := [("version_major".toList, .str "0".toList), ("version_minor".toList, .str "2".toList)])
  have hall := written_data (env := env) (att := att) (c := c) hg ha (name := name) (fa := [("version_major".toList, .str "0".toList), ("version_minor".toList, .str "2".toList)])
  by_cases hs : st = some false
  · obtain ⟨ss, h1, h2⟩ := C113_datasets (velox := velox) (st := st) (arg := .none) (rs := [recOf env s]) hnv hb hcp (by simpa using hh)
      (.inr (.inr ⟨rfl, hs, hord, hall⟩))
    cases h2 with
    | cons h2 h3 =>
      cases h3
      exact ⟨_, _, hf, hst, h1, back_ok hw hk h2.1 h2.2⟩
  · obtain ⟨ss, h1, h2⟩ := C113_stacks_partial (velox := velox) (st := st) (arg := .none) (ts := [⟨recOf env s, [], signalGroup s⟩])
      (ps := [inside (signalGroup s) "data".toList]) hnv hb hcp (by
        intro t ht
        rw [List.mem_singleton] at ht
        subst ht
        exact ⟨⟨hh, by simp, by simp⟩, fun l hp => absurd hp hnp⟩) ⟨rfl, by simp, by
        intro t ht
        rw [List.mem_singleton] at ht
        subst ht
        exact ⟨⟨fun h => absurd h.1 hnp, fun _ => rfl⟩, by simp⟩, by simp⟩ (.inl ⟨rfl, hs, hord, hall⟩)
    cases h2 with
    | cons h2 h3 =>
      cases h3
      exact ⟨_, _, hf, hst, h1, back_ok hw hk (h2.1 rfl) h2.2.2⟩

end Verif.Props.EmdNcem
