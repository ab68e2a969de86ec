import Verif.Model.StoredModels
import Mathlib.Data.List.Nodup
/-! Property C20: stored models and the signals they belong to. -/
namespace Verif.Props.StoredModels
open Verif Verif.StoredModels

variable {σ μ : Type}

theorem putKey_new {β : Type} (k : String) (v : β) : ∀ l : List (String × β),
    k ∉ l.map Prod.fst → putKey k v l = l ++ [(k, v)]
  | [], _ => rfl
  | (k', v') :: rest, h => by
    simp only [List.map_cons, List.mem_cons, not_or] at h
    simp [putKey, Ne.symm h.1, putKey_new k v rest h.2]

theorem putKey_keys {β : Type} (k : String) (v : β) : ∀ l : List (String × β), ∀ x,
    x ∈ (putKey k v l).map Prod.fst ↔ x = k ∨ x ∈ l.map Prod.fst
  | [], x => by simp [putKey]
  | (k', v') :: rest, x => by
    unfold putKey
    split
    · rename_i h; subst h; simp
    · simp only [List.map_cons, List.mem_cons, putKey_keys k v rest x]
      tauto

theorem takeModels_rest (name : String) : ∀ ms : List (String × (String × μ)),
    (takeModels name ms).2 = ms.filter fun m => decide (m.1 ≠ name)
  | [] => rfl
  | (key, m) :: rest => by
    have ih := takeModels_rest name rest
    unfold takeModels
    by_cases h : key = name
    · simp [h, ih]
    · simp [h, ih]

theorem takeModels_tmp (name : String) : ∀ ms : List (String × (String × μ)),
    (ms.map fun m => m.2.1).Nodup →
    (takeModels name ms).1.Perm ((ms.filter fun m => decide (m.1 = name)).map Prod.snd)
  | [], _ => List.Perm.refl _
  | (key, m) :: rest, h => by
    simp only [List.map_cons, List.nodup_cons] at h
    have ih := takeModels_tmp name rest h.2
    unfold takeModels
    by_cases hk : key = name
    · simp only [hk, if_true, decide_true, List.filter_cons_of_pos, List.map_cons]
      rw [putKey_new]
      · exact (List.perm_append_singleton _ _).trans (ih.cons m)
      · intro hmem
        have := (ih.map Prod.fst).mem_iff.1 hmem
        simp only [List.map_map, List.mem_map, List.mem_filter, Function.comp] at this
        obtain ⟨a, ⟨ha, _⟩, e⟩ := this
        exact h.1 (List.mem_map.2 ⟨a, ha, e⟩)
    · simp [hk, ih]

theorem readExps_spec : ∀ (exps : List (String × Option σ)) (ms : List (String × (String × μ))),
    (exps.map Prod.fst).Nodup → (ms.map fun m => m.2.1).Nodup →
    ((readExps exps ms).1.map fun s => (s.1, some s.2.1)) = exps.filter (fun e => e.2.isSome) ∧
    (∀ name d t, (name, d, t) ∈ (readExps exps ms).1 →
      t.Perm ((ms.filter fun m => decide (m.1 = name)).map Prod.snd)) ∧
    (readExps exps ms).2 =
      ms.filter fun m => decide (∀ e ∈ exps, e.2.isSome = true → m.1 ≠ e.1)
  | [], ms, _, _ => by
    refine ⟨rfl, fun _ _ _ h => by simp [readExps] at h, ?_⟩
    simp [readExps]
  | (n, none) :: rest, ms, he, hm => by
    simp only [List.map_cons, List.nodup_cons] at he
    obtain ⟨h1, h2, h3⟩ := readExps_spec rest ms he.2 hm
    refine ⟨by simpa [readExps] using h1, h2, ?_⟩
    simp only [readExps, h3]
    congr 1
    funext m
    simp
  | (n, some d) :: rest, ms, he, hm => by
    simp only [List.map_cons, List.nodup_cons] at he
    have hrest : (takeModels n ms).2 = ms.filter fun m => decide (m.1 ≠ n) := takeModels_rest n ms
    have hm' : ((takeModels n ms).2.map fun m => m.2.1).Nodup := by
      rw [hrest]
      exact hm.sublist (List.Sublist.map _ List.filter_sublist)
    obtain ⟨h1, h2, h3⟩ := readExps_spec rest (takeModels n ms).2 he.2 hm'
    refine ⟨by simp [readExps, h1], ?_, ?_⟩
    · intro name d' t hmem
      simp only [readExps, List.mem_cons, Prod.mk.injEq] at hmem
      rcases hmem with ⟨rfl, rfl, rfl⟩ | hmem
      · exact takeModels_tmp name ms hm
      · have hp := h2 name d' t hmem
        have hne : name ≠ n := by
          intro e
          subst e
          have : (name, some d') ∈ rest.filter (fun e => e.2.isSome) := by
            rw [← h1]
            exact List.mem_map.2 ⟨_, hmem, rfl⟩
          exact he.1 (List.mem_map.2 ⟨_, (List.mem_filter.1 this).1, rfl⟩)
        rw [hrest, List.filter_filter] at hp
        have : (fun m : String × (String × μ) => decide (m.1 = name) && decide (m.1 ≠ n))
            = fun m => decide (m.1 = name) := by
          funext m
          by_cases hmn : m.1 = name
          · simp [hmn, hne]
          · simp [hmn]
        rw [this] at hp
        exact hp
    · show (readExps rest (takeModels n ms).2).2 = _
      rw [h3, hrest, List.filter_filter]
      congr 1
      funext m
      simp only [List.mem_cons, forall_eq_or_imp, Option.isSome_some, true_imp_iff]
      rw [Bool.and_comm, ← Bool.decide_and]

/-- **C20, reading**: every experiment with data is returned, in order; it comes with exactly the
models whose `_signal` attribute names it; all other models (without the attribute, or naming a
signal that is not in the file) are returned on their own. No model is lost or returned twice.
`IOError` only if there is nothing to return. -/
theorem C20_read (f : File σ μ) (he : (f.exps.map Prod.fst).Nodup)
    (hm : (f.models.map Prod.fst).Nodup)
    (hne : f.models ≠ [] ∨ ∃ n d, (n, some d) ∈ f.exps) :
    ∃ r, readFile f = .ok r ∧
      (r.signals.map fun s => (s.1, some s.2.1)) = f.exps.filter (fun e => e.2.isSome) ∧
      (∀ name d ms, (name, d, ms) ∈ r.signals → (ms.map Prod.fst).Nodup ∧
        ∀ m v, (m, v) ∈ ms ↔ (m, some name, v) ∈ f.models) ∧
      (r.standalone.map Prod.fst).Nodup ∧
      ∀ m v, (m, v) ∈ r.standalone ↔ ∃ s, (m, s, v) ∈ f.models ∧
        ∀ name d, s = some name → (name, some d) ∉ f.exps := by
  have hws : (withSignal f).map (fun m => m.2.1) =
      (f.models.filter fun m => m.2.1.isSome).map Prod.fst := by
    unfold withSignal
    generalize f.models = l
    induction l with
    | nil => rfl
    | cons a l ih => rcases a with ⟨n, _ | s, v⟩ <;> simp_all
  have hnd : ((withSignal f).map fun m => m.2.1).Nodup := by
    rw [hws]; exact hm.sublist (List.Sublist.map _ List.filter_sublist)
  obtain ⟨h1, h2, h3⟩ := readExps_spec f.exps (withSignal f) he hnd
  have hmemws : ∀ k m v, (k, m, v) ∈ withSignal f ↔ (m, some k, v) ∈ f.models := by
    intro k m v
    simp only [withSignal, List.mem_filterMap, Option.map_eq_some_iff, Prod.mk.injEq]
    constructor
    · rintro ⟨⟨a, b, c⟩, ha, k', hk', rfl, rfl, rfl⟩
      simp only at hk'
      subst hk'
      exact ha
    · intro h
      exact ⟨_, h, k, rfl, rfl, rfl, rfl⟩
  have hmemwo : ∀ m v, (m, v) ∈ withoutSignal f ↔ (m, none, v) ∈ f.models := by
    intro m v
    simp only [withoutSignal, List.mem_filterMap]
    constructor
    · rintro ⟨⟨a, b, c⟩, ha, h⟩
      cases b with
      | none => simp at h; obtain ⟨rfl, rfl⟩ := h; exact ha
      | some s => simp at h
    · intro h
      exact ⟨_, h, by simp⟩
  have hstand : ∀ m v, (m, v) ∈ withoutSignal f ++ (readExps f.exps (withSignal f)).2.map (·.2) ↔
      ∃ s, (m, s, v) ∈ f.models ∧ ∀ name d, s = some name → (name, some d) ∉ f.exps := by
    intro m v
    rw [List.mem_append, hmemwo, h3]
    constructor
    · rintro (h | h)
      · exact ⟨none, h, by simp⟩
      · simp only [List.mem_map, List.mem_filter, decide_eq_true_eq] at h
        obtain ⟨⟨k, a, b⟩, ⟨hk, hall⟩, e⟩ := h
        simp only [Prod.mk.injEq] at e
        obtain ⟨rfl, rfl⟩ := e
        refine ⟨some k, (hmemws _ _ _).1 hk, fun name d e hmem => ?_⟩
        cases e
        exact hall _ hmem rfl rfl
    · rintro ⟨s, h, hall⟩
      cases s with
      | none => exact .inl h
      | some k =>
        right
        refine List.mem_map.2 ⟨(k, m, v), List.mem_filter.2 ⟨(hmemws _ _ _).2 h, ?_⟩, rfl⟩
        rw [decide_eq_true_eq]
        rintro ⟨en, ed⟩ he' hs e
        simp only at e hs
        subst e
        cases ed with
        | none => simp at hs
        | some d => exact hall k d rfl he'
  have hsnd : ((withoutSignal f ++ (readExps f.exps (withSignal f)).2.map (·.2)).map
      Prod.fst).Nodup := by
    rw [List.map_append, List.nodup_append]
    refine ⟨?_, ?_, ?_⟩
    · have : (withoutSignal f).map Prod.fst =
          (f.models.filter fun m => m.2.1.isNone).map Prod.fst := by
        unfold withoutSignal
        generalize f.models = l
        induction l with
        | nil => rfl
        | cons a l ih => rcases a with ⟨n, _ | s, v⟩ <;> simp_all
      rw [this]; exact hm.sublist (List.Sublist.map _ List.filter_sublist)
    · rw [h3, List.map_map]
      exact hnd.sublist (List.Sublist.map _ List.filter_sublist)
    · intro a ha b hb e
      subst e
      simp only [List.mem_map] at ha hb
      obtain ⟨⟨a1, v1⟩, ha, rfl⟩ := ha
      obtain ⟨⟨b1, v2⟩, hb, e⟩ := hb
      obtain ⟨⟨k, c1, c2⟩, hc, e2⟩ := hb
      simp only at e e2
      cases e2
      subst e
      have g1 := (hmemwo _ _).1 ha
      rw [h3] at hc
      have g2 := (hmemws _ _ _).1 (List.mem_filter.1 hc).1
      have := List.inj_on_of_nodup_map hm g1 g2 rfl
      simp at this
  unfold readFile
  simp only
  have hnot : ¬ ((readExps f.exps (withSignal f)).1 = [] ∧
      withoutSignal f ++ (readExps f.exps (withSignal f)).2.map (·.2) = []) := by
    rintro ⟨a, b⟩
    rw [a] at h1
    have hnoexp : ∀ n d, (n, some d) ∉ f.exps := by
      intro n d hmem
      have : (n, some d) ∈ f.exps.filter (fun e => e.2.isSome) := List.mem_filter.2 ⟨hmem, rfl⟩
      rw [← h1] at this
      simp at this
    rcases hne with h | ⟨n, d, h⟩
    · rcases hml : f.models with _ | ⟨⟨m, s, v⟩, l⟩
      · exact h hml
      · have := (hstand m v).2 ⟨s, by rw [hml]; exact List.mem_cons_self, fun name d _ => hnoexp name d⟩
        rw [b] at this
        simp at this
    · exact hnoexp n d h
  rw [if_neg hnot]
  refine ⟨_, rfl, h1, ?_, hsnd, hstand⟩
  intro name d ms hmem
  have hp := h2 name d ms hmem
  have hsub : ((withSignal f).filter fun m => decide (m.1 = name)).Sublist (withSignal f) :=
    List.filter_sublist
  constructor
  · refine (hp.map Prod.fst).nodup_iff.2 ?_
    rw [List.map_map]
    exact hnd.sublist (hsub.map _)
  · intro m v
    rw [hp.mem_iff, List.mem_map]
    constructor
    · rintro ⟨⟨k, a⟩, ha, e⟩
      simp only at e
      subst e
      have := List.mem_filter.1 ha
      simp only [decide_eq_true_eq] at this
      obtain ⟨h, rfl⟩ := this
      exact (hmemws _ _ _).1 h
    · intro h
      exact ⟨(name, m, v), List.mem_filter.2 ⟨(hmemws _ _ _).2 h, by simp⟩, rfl⟩

/-- A file with two experiments and three models, one of them of a signal not in the file. -/
example : let f : File Nat Nat :=
    ⟨[("a", some 1), ("b", some 2)], [("m", some "b", 7), ("n", none, 8), ("o", some "c", 9)]⟩
    (f.exps.map Prod.fst).Nodup ∧ (f.models.map Prod.fst).Nodup ∧ f.models ≠ [] ∧
    readFile f = .ok ⟨[("a", 1, []), ("b", 2, [("m", 7)])], [("n", 8), ("o", 9)]⟩ := by decide

/-! ### Writing -/

/-- A history of writes: title, data and models of each signal. -/
abbrev Writes (σ μ : Type) := List (String × σ × List (String × μ))

def writeAll (merge : μ → μ → μ) (ws : Writes σ μ) : File σ μ :=
  ws.foldl (fun f w => writeSignal merge f w.1 (some w.2.1) w.2.2) ⟨[], []⟩

theorem putModels_new (merge : μ → μ → μ) : ∀ (new : List (String × μ))
    (ms : List (String × (Option String × μ))), (new.map Prod.fst).Nodup →
    (∀ x ∈ new.map Prod.fst, x ∉ ms.map Prod.fst) →
    putModels merge new ms = ms ++ new.map fun m => (m.1, none, m.2)
  | [], ms, _, _ => by simp [putModels]
  | (m, v) :: rest, ms, hnd, hdis => by
    simp only [List.map_cons, List.nodup_cons] at hnd
    have hm : m ∉ ms.map Prod.fst := hdis m (by simp)
    have hl : lookup m ms = none := by
      clear hdis
      induction ms with
      | nil => rfl
      | cons a l ih =>
        simp only [List.map_cons, List.mem_cons, not_or] at hm
        simp [lookup, Ne.symm hm.1, ih hm.2]
    unfold putModels
    rw [hl]
    simp only
    rw [putKey_new _ _ _ hm, putModels_new merge rest _ hnd.2]
    · simp
    · intro x hx hx'
      simp only [List.map_append, List.map_cons, List.map_nil, List.mem_append, List.mem_cons,
        List.not_mem_nil, or_false] at hx'
      rcases hx' with h | rfl
      · exact hdis x (by simp only [List.map_cons, List.mem_cons]; exact .inr hx) h
      · exact hnd.1 hx

/-- Writes without models only add experiments. -/
theorem writeAll_noModels (merge : μ → μ → μ) : ∀ (ws : Writes σ μ) (f : File σ μ),
    (ws.map Prod.fst).Nodup → (∀ w ∈ ws, w.1 ∉ f.exps.map Prod.fst) → (∀ w ∈ ws, w.2.2 = []) →
    ws.foldl (fun f w => writeSignal merge f w.1 (some w.2.1) w.2.2) f =
      ⟨f.exps ++ ws.map (fun w => (w.1, some w.2.1)), f.models⟩
  | [], f, _, _, _ => by simp
  | w :: ws, f, hnd, hnew, hno => by
    simp only [List.map_cons, List.nodup_cons] at hnd
    have h1 := hnew w List.mem_cons_self
    have h2 := hno w List.mem_cons_self
    rw [List.foldl_cons]
    have hstep : writeSignal merge f w.1 (some w.2.1) w.2.2 =
        ⟨f.exps ++ [(w.1, some w.2.1)], f.models⟩ := by
      simp [writeSignal, h2, putKey_new _ _ _ h1]
    rw [hstep, writeAll_noModels merge ws _ hnd.2]
    · simp
    · intro w' hw' hmem
      simp only [List.map_append, List.map_cons, List.map_nil, List.mem_append, List.mem_cons,
        List.not_mem_nil, or_false] at hmem
      rcases hmem with h | h
      · exact hnew w' (List.mem_cons_of_mem _ hw') h
      · exact hnd.1 (List.mem_map.2 ⟨w', hw', h⟩)
    · exact fun w' hw' => hno w' (List.mem_cons_of_mem _ hw')

/-- **C20 (partial)**: if at most one of the signals written to a file has models, reading the
file gives back every signal with exactly its own models, and nothing else. Missing: several
signals with models in one file (see `C20_fails_two_signals_with_models`). -/
theorem C20_write_read_partial (merge : μ → μ → μ) (ws1 ws2 : Writes σ μ)
    (w : String × σ × List (String × μ))
    (hnd : ((ws1 ++ w :: ws2).map Prod.fst).Nodup)
    (h1 : ∀ w' ∈ ws1, w'.2.2 = []) (h2 : ∀ w' ∈ ws2, w'.2.2 = [])
    (hm : (w.2.2.map Prod.fst).Nodup) :
    ∃ r, readFile (writeAll merge (ws1 ++ w :: ws2)) = .ok r ∧
      (r.signals.map fun s => (s.1, s.2.1)) = (ws1 ++ w :: ws2).map (fun s => (s.1, s.2.1)) ∧
      (∀ name d ms, (name, d, ms) ∈ r.signals →
        ∃ own, (name, d, own) ∈ ws1 ++ w :: ws2 ∧ ms.Perm own) ∧
      r.standalone = [] := by
  have hnd' := hnd
  rw [List.map_append, List.nodup_append] at hnd
  obtain ⟨hn1, hn2, hdis⟩ := hnd
  simp only [List.map_cons, List.nodup_cons] at hn2
  have hw1 : w.1 ∉ ws1.map Prod.fst := fun h => hdis _ h w.1 (by simp) rfl
  have hfile : writeAll merge (ws1 ++ w :: ws2) =
      ⟨(ws1 ++ w :: ws2).map (fun s => (s.1, some s.2.1)),
        w.2.2.map fun m => (m.1, some w.1, m.2)⟩ := by
    unfold writeAll
    rw [List.foldl_append, writeAll_noModels merge ws1 _ hn1 (by simp) h1, List.foldl_cons]
    have hstep : writeSignal merge
        (⟨[] ++ ws1.map (fun w => (w.1, some w.2.1)), []⟩ : File σ μ) w.1 (some w.2.1) w.2.2 =
        ⟨(ws1 ++ [w]).map (fun s => (s.1, some s.2.1)), w.2.2.map fun m => (m.1, some w.1, m.2)⟩ := by
      unfold writeSignal
      simp only
      rw [putKey_new, putModels_new merge _ _ hm (by simp)]
      · by_cases he : w.2.2 = []
        · simp [he]
        · simp [he]
      · simpa [Function.comp_def] using hw1
    simp only at hstep ⊢
    rw [hstep, writeAll_noModels merge ws2 _ hn2.2 _ h2]
    · simp
    · intro w' hw' hmem
      simp only [List.map_map, List.map_append, List.mem_append, List.map_cons, List.map_nil,
        List.mem_cons, List.not_mem_nil, or_false, Function.comp_def] at hmem
      rcases hmem with h | h
      · exact hdis _ h w'.1 (by
          simp only [List.map_cons, List.mem_cons]
          exact .inr (List.mem_map.2 ⟨w', hw', rfl⟩)) rfl
      · exact hn2.1 (List.mem_map.2 ⟨w', hw', h⟩)
  generalize hall : ws1 ++ w :: ws2 = ws at *
  have hexps : ((writeAll merge ws).exps.map Prod.fst).Nodup := by
    rw [hfile]; simpa [Function.comp_def] using hnd'
  have hmods : ((writeAll merge ws).models.map Prod.fst).Nodup := by
    rw [hfile]; simpa [Function.comp_def] using hm
  have hwin : w ∈ ws := by rw [← hall]; simp
  obtain ⟨r, hr, hsig, hms, _, hst⟩ := C20_read (writeAll merge ws) hexps hmods
    (.inr ⟨w.1, w.2.1, by
      rw [hfile]; exact List.mem_map.2 ⟨w, hwin, rfl⟩⟩)
  have hsig' : (r.signals.map fun s => (s.1, s.2.1)) = ws.map (fun s => (s.1, s.2.1)) := by
    rw [hfile] at hsig
    simp only at hsig
    rw [List.filter_eq_self.2 (by
      intro a ha
      obtain ⟨b, _, rfl⟩ := List.mem_map.1 ha
      rfl)] at hsig
    have := congrArg (List.filterMap fun p : String × Option σ => p.2.map fun d => (p.1, d)) hsig
    simpa [List.filterMap_map, Function.comp_def] using this
  refine ⟨r, hr, hsig', ?_, ?_⟩
  · intro name d ms hmem
    obtain ⟨hnod, hiff⟩ := hms name d ms hmem
    have : (name, d) ∈ ws.map (fun s => (s.1, s.2.1)) := by
      rw [← hsig']; exact List.mem_map.2 ⟨_, hmem, rfl⟩
    obtain ⟨⟨n', d', own⟩, hown, e⟩ := List.mem_map.1 this
    simp only [Prod.mk.injEq] at e
    obtain ⟨rfl, rfl⟩ := e
    refine ⟨own, hown, ?_⟩
    have hownd : (own.map Prod.fst).Nodup ∧ ∀ m v, (m, v) ∈ own ↔
        (m, some n', v) ∈ (writeAll merge ws).models := by
      rw [hfile]
      by_cases hnw : n' = w.1
      · have : (n', d', own) = w := List.inj_on_of_nodup_map hnd' hown hwin hnw
        have ho : w.2.2 = own := by rw [← this]
        rw [← ho]
        refine ⟨hm, fun m v => ?_⟩
        simp only [List.mem_map, Prod.mk.injEq, Option.some.injEq]
        constructor
        · intro h; exact ⟨_, h, rfl, hnw.symm, rfl⟩
        · rintro ⟨⟨a, b⟩, h, rfl, _, rfl⟩; exact h
      · have ho : own = [] := by
          rw [← hall] at hown
          rcases List.mem_append.1 hown with h | h
          · exact h1 _ h
          · rcases List.mem_cons.1 h with h | h
            · exact absurd (by rw [← h]) hnw
            · exact h2 _ h
        rw [ho]
        refine ⟨by simp, fun m v => ?_⟩
        simp only [List.not_mem_nil, List.mem_map, Prod.mk.injEq, Option.some.injEq, false_iff]
        rintro ⟨_, _, _, h, _⟩
        exact hnw h.symm
    refine (List.perm_ext_iff_of_nodup (hnod.of_map _) (hownd.1.of_map _)).2 ?_
    rintro ⟨m, v⟩
    rw [hiff, hownd.2]
  · rcases hs : r.standalone with _ | ⟨⟨m, v⟩, l⟩
    · rfl
    · exfalso
      obtain ⟨s, hmem, hno⟩ := (hst m v).1 (by rw [hs]; exact List.mem_cons_self)
      rw [hfile] at hmem hno
      obtain ⟨a, _, e⟩ := List.mem_map.1 hmem
      simp only [Prod.mk.injEq] at e
      exact hno w.1 w.2.1 e.2.1.symm (List.mem_map.2 ⟨w, hwin, rfl⟩)

example : (([("a", 1, [])] ++ ("b", 2, [("m", 7), ("n", 8)]) :: [("c", 3, [])] :
    Writes Nat Nat).map Prod.fst).Nodup ∧ ([("m", 7), ("n", 8)].map Prod.fst).Nodup := by decide

/-- C20 is false for two signals with models: the second write claims the models of the first. -/
theorem C20_fails_two_signals_with_models :
    readFile (writeAll (fun _ new => new) [("a", 1, [("m", 7)]), ("b", 2, [("n", 8)])]) =
      .ok (⟨[("a", 1, []), ("b", 2, [("n", 8), ("m", 7)])], []⟩ : Read Nat Nat) := by
  decide

/-- In general: after a write with models, *every* model in the file belongs to that signal. -/
theorem C20_last_write_claims_all (merge : μ → μ → μ) (f : File σ μ) (name : String)
    (d : Option σ) (models : List (String × μ)) (hne : models ≠ []) :
    ∀ m ∈ (writeSignal merge f name d models).models, m.2.1 = some name := by
  intro m hm
  simp only [writeSignal, hne, if_false, List.mem_map] at hm
  obtain ⟨a, _, rfl⟩ := hm
  rfl

end Verif.Props.StoredModels
