import Verif.Model.Protochips
import Verif.Spec.Protochips
import Verif.Lemmas.Genfromtxt
/-! Lemmas for C93. -/
namespace Verif.Lemmas.Protochips
open Verif.Genfromtxt Verif.Protochips Verif.Spec.Protochips Verif.Spec.Tables Verif.Lemmas.Genfromtxt

/-! ### Commas -/

theorem cs_cons {c d : Char} (h : ¬ (c = ',' ∧ d = ' ')) (t : Text) : commaSpace (c :: d :: t) = c :: commaSpace (d :: t) := by
  rw [commaSpace, if_neg h]

theorem cs_skip : ∀ {p : Text}, ',' ∉ p → ∀ t : Text, commaSpace (p ++ t) = p ++ commaSpace t
  | [], _, _ => rfl
  | c :: p, h, t => by
    have hc : c ≠ ',' := fun e => h (by simp [e])
    have ih := cs_skip (p := p) (fun m => h (List.mem_cons_of_mem _ m)) t
    cases hpt : p ++ t with
    | nil =>
      rw [List.cons_append, hpt]
      rw [hpt] at ih
      rw [List.cons_append, ← ih]
      rfl
    | cons d u =>
      rw [List.cons_append, hpt, cs_cons (fun e => hc e.1), ← hpt, ih]
      rfl

theorem cs_space (t : Text) : commaSpace (',' :: ' ' :: t) = ',' :: commaSpace t := by
  rw [commaSpace, if_pos ⟨rfl, rfl⟩]

theorem cs_comma (t : Text) : ∃ y, commaSpace (',' :: t) = ',' :: y := by
  cases t with
  | nil => exact ⟨[], rfl⟩
  | cons d t =>
    by_cases h : d = ' '
    · subst h
      exact ⟨_, cs_space t⟩
    · exact ⟨_, cs_cons (fun e => h e.2) t⟩

/-- A cell after a comma, with or without a space. -/
theorem cs_cell {b : Bool} {n : Text} (h1 : ',' ∉ n) (h2 : n ≠ []) (h3 : n.head? ≠ some ' ') (t : Text) :
    commaSpace (',' :: ((if b then [' '] else []) ++ n) ++ t) = ',' :: (n ++ commaSpace t) := by
  cases b with
  | true =>
    simp only [if_true, List.cons_append, List.nil_append]
    rw [cs_space, cs_skip h1]
  | false =>
    cases n with
    | nil => exact absurd rfl h2
    | cons c n =>
      have hc : c ≠ ' ' := by
        intro e
        subst e
        exact h3 rfl
      simp only [Bool.false_eq_true, if_false, List.nil_append, List.cons_append]
      rw [cs_cons (fun e => hc e.2), ← List.cons_append, cs_skip h1]
      rfl

theorem cs_spaced : ∀ {l : List (Bool × Text)}, (∀ e ∈ l, ',' ∉ e.2 ∧ e.2 ≠ [] ∧ e.2.head? ≠ some ' ') → ∀ t : Text, ',' ∉ t →
    commaSpace (spaced l ++ t) = (l.flatMap fun e => ',' :: e.2) ++ t
  | [], _, t, ht => by
    have := cs_skip ht []
    simpa [spaced, commaSpace] using this
  | e :: l, h, t, ht => by
    obtain ⟨h1, h2, h3⟩ := h e (List.mem_cons_self ..)
    have ih := cs_spaced (fun x hx => h x (List.mem_cons_of_mem _ hx)) t ht
    have e1 : spaced (e :: l) ++ t = ',' :: ((if e.1 then [' '] else []) ++ e.2) ++ (spaced l ++ t) := by simp [spaced]
    rw [e1, cs_cell h1 h2 h3, ih]
    simp

theorem flat_join (p : Text) : ∀ l : List (Bool × Text), p ++ (l.flatMap fun e => ',' :: e.2) = joinWith [','] (p :: l.map Prod.snd)
  | [] => by simp [joinWith]
  | e :: l => by
    rw [List.map_cons, joinWith, List.flatMap_cons, ← flat_join e.2 l]
    simp

/-! ### Names -/

theorem name_no {n : Text} (h : Name n) {c : Char} (hc : c.isAlphanum = false) (hs : c ≠ ' ') : c ∉ n := by
  intro hm
  rcases h.char c hm with h1 | h1
  · rw [hc] at h1; exact absurd h1 (by simp)
  · exact hs h1

def under (n : Text) : Text := n.map fun c => if c = ' ' then '_' else c

theorem under_inj {a b : Text} (ha : '_' ∉ a) (hb : '_' ∉ b) (h : under a = under b) : a = b := by
  have key : ∀ {a : Text}, '_' ∉ a → (under a).map (fun c => if c = '_' then ' ' else c) = a := by
    intro a ha
    unfold under
    rw [List.map_map]
    conv_rhs => rw [← List.map_id a]
    apply List.map_congr_left
    intro c hc
    simp only [Function.comp]
    by_cases h : c = ' '
    · subst h
      rfl
    · rw [if_neg h, if_neg]
      · rfl
      · rintro rfl
        exact ha hc
  rw [← key ha, ← key hb, h]

theorem alnum_ok {c : Char} (h : c.isAlphanum = true) : isSpace c = false ∧ c ∉ deleteChars := by
  have hr : (48 ≤ c.toNat ∧ c.toNat ≤ 57) ∨ (65 ≤ c.toNat ∧ c.toNat ≤ 90) ∨ (97 ≤ c.toNat ∧ c.toNat ≤ 122) := by
    unfold Char.isAlphanum Char.isAlpha Char.isUpper Char.isLower Char.isDigit at h
    simp only [Bool.or_eq_true, Bool.and_eq_true, decide_eq_true_eq, UInt32.le_iff_toNat_le] at h
    have e : c.toNat = c.val.toNat := rfl
    rw [e]
    have h1 : 'A'.val.toNat = 65 := rfl
    have h2 : 'Z'.val.toNat = 90 := rfl
    have h3 : 'a'.val.toNat = 97 := rfl
    have h4 : 'z'.val.toNat = 122 := rfl
    have h5 : '0'.val.toNat = 48 := rfl
    have h6 : '9'.val.toNat = 57 := rfl
    omega
  constructor
  · unfold isSpace
    simp only [Bool.or_eq_false_iff, Bool.and_eq_false_imp, decide_eq_true_eq, decide_eq_false_iff_not, beq_eq_false_iff_ne]
    omega
  · intro hm
    have hall : ∀ d ∈ deleteChars, ¬ ((48 ≤ d.toNat ∧ d.toNat ≤ 57) ∨ (65 ≤ d.toNat ∧ d.toNat ≤ 90) ∨ (97 ≤ d.toNat ∧ d.toNat ≤ 122)) := by decide +kernel
    exact hall c hm hr

theorem under_kept {n : Text} (h : Name n) : Kept (under n) := by
  refine ⟨?_, ?_, ?_⟩
  · intro e
    exact h.ne (List.map_eq_nil_iff.1 e)
  · intro c hc
    obtain ⟨d, hd, rfl⟩ := List.mem_map.1 hc
    by_cases hs : d = ' '
    · rw [if_pos hs]
      decide
    · rw [if_neg hs]
      rcases h.char d hd with h1 | h1
      · exact alnum_ok h1
      · exact absurd h1 hs
  · intro hm
    have hno : '_' ∉ under n := by
      intro hu
      have : ∀ w ∈ excluded, '_' ∉ w := by decide
      exact this _ hm hu
    have e : under n = n := by
      unfold under
      conv_rhs => rw [← List.map_id n]
      apply List.map_congr_left
      intro c hc
      rw [if_neg]
      · rfl
      · rintro rfl
        exact hno (List.mem_map.2 ⟨' ', hc, rfl⟩)
    rw [e] at hm
    exact h.word hm

/-! ### The header -/

theorem parse_param {p : Param} (h : ParamOk p) : parseLine (paramLine p ++ ['\n']) = .ok (p.name, p.value) := by
  obtain ⟨n1, n2, n3, n4⟩ := h.name
  obtain ⟨v1, v2⟩ := h.value
  have hcell : ',' ∉ p.name ++ " = ".toList ++ p.value := by
    intro hm
    rcases List.mem_append.1 hm with hm | hm
    · rcases List.mem_append.1 hm with hm | hm
      · exact n1 hm
      · exact absurd hm (by decide)
    · exact v1 hm
  obtain ⟨y, hy⟩ := cs_comma (p.rest ++ ['\n'])
  have e : commaSpace (paramLine p ++ ['\n']) = p.first ++ ',' :: ((p.name ++ " = ".toList ++ p.value) ++ ',' :: y) := by
    have e1 : paramLine p ++ ['\n'] = p.first ++ (',' :: ((if p.space then [' '] else []) ++ (p.name ++ " = ".toList ++ p.value)) ++ (',' :: (p.rest ++ ['\n']))) := by
      simp [paramLine]
    rw [e1, cs_skip h.first, cs_cell hcell (by simp) (by
      cases hn : p.name with
      | nil => exact absurd hn n3
      | cons c r =>
        rw [hn] at n4
        simpa using n4), hy]
  unfold parseLine
  rw [e, splitChar_append h.first, splitChar_append hcell]
  dsimp only
  rw [split_eq n2 v2]

/-- A line of the header is stored. -/
def st (h : Header) (p : Param) : Header := { store h p.name p.value with last := h.last + 1 }

theorem loop_user {u : Param} (hu : ParamOk u) (huser : IsUser u.name) (rest : List Text) : ∀ (ps : List Param) (p : Param) (h : Header), (∀ q ∈ p :: ps, ParamOk q ∧ ¬ IsUser q.name) →
    loop h p.name p.value ((ps.map fun q => paramLine q ++ ['\n']) ++ (paramLine u ++ ['\n']) :: rest) = { (p :: ps).foldl st h with user := some (some u.value) }
  | [], p, h, hp => by
    have hno : ¬ contains "User".toList p.name = true := fun e => (hp p (List.mem_cons_self ..)).2 (contains_iff.1 e)
    rw [List.map_nil, List.nil_append, loop, if_neg hno, parse_param hu]
    dsimp only
    have hy : contains "User".toList u.name = true := contains_iff.2 huser
    cases rest with
    | nil => rw [loop, if_pos hy]; rfl
    | cons l rest => rw [loop, if_pos hy]; rfl
  | q :: ps, p, h, hp => by
    have hno : ¬ contains "User".toList p.name = true := fun e => (hp p (List.mem_cons_self ..)).2 (contains_iff.1 e)
    rw [List.map_cons, List.cons_append, loop, if_neg hno, parse_param (hp q (by simp)).1]
    dsimp only
    have ih := loop_user hu huser rest ps q (st h p) fun x hx => hp x (List.mem_cons_of_mem _ hx)
    rw [List.foldl_cons]
    exact ih

theorem loop_none {l : Text} (hl : parseLine l = .error .valueError) (rest : List Text) : ∀ (ps : List Param) (p : Param) (h : Header), (∀ q ∈ p :: ps, ParamOk q ∧ ¬ IsUser q.name) →
    loop h p.name p.value ((ps.map fun q => paramLine q ++ ['\n']) ++ l :: rest) = { (p :: ps).foldl st h with user := some none }
  | [], p, h, hp => by
    have hno : ¬ contains "User".toList p.name = true := fun e => (hp p (List.mem_cons_self ..)).2 (contains_iff.1 e)
    rw [List.map_nil, List.nil_append, loop, if_neg hno, hl]
    rfl
  | q :: ps, p, h, hp => by
    have hno : ¬ contains "User".toList p.name = true := fun e => (hp p (List.mem_cons_self ..)).2 (contains_iff.1 e)
    rw [List.map_cons, List.cons_append, loop, if_neg hno, parse_param (hp q (by simp)).1]
    dsimp only
    have ih := loop_none hl rest ps q (st h p) fun x hx => hp x (List.mem_cons_of_mem _ hx)
    rw [List.foldl_cons]
    exact ih

theorem fold_last : ∀ (ps : List Param) (h : Header), (ps.foldl st h).last = h.last + ps.length
  | [], _ => rfl
  | p :: ps, h => by
    rw [List.foldl_cons, fold_last ps]
    simp only [st, List.length_cons]
    omega

theorem store_date (h : Header) (p : Param) : (IsDate p.name → (st h p).date = some p.value) ∧ (¬ IsDate p.name → (st h p).date = h.date) := by
  unfold IsDate IsCalibration
  simp only [st, store]
  by_cases h1 : contains "Calibration file".toList p.name = true
  · rw [if_pos h1]
    rw [contains_iff] at h1
    exact ⟨fun e => absurd h1 e.1, fun _ => rfl⟩
  rw [if_neg h1]
  rw [contains_iff] at h1
  by_cases h2 : contains "Date (yyyy.mm.dd)".toList p.name = true
  · rw [if_pos h2]
    rw [contains_iff] at h2
    exact ⟨fun _ => rfl, fun e => absurd ⟨h1, h2⟩ e⟩
  rw [if_neg h2]
  rw [contains_iff] at h2
  refine ⟨fun e => absurd e.2 h2, fun _ => ?_⟩
  split <;> rfl

theorem store_time (h : Header) (p : Param) : (IsTime p.name → (st h p).time = some p.value) ∧ (¬ IsTime p.name → (st h p).time = h.time) := by
  unfold IsTime IsCalibration
  simp only [st, store]
  by_cases h1 : contains "Calibration file".toList p.name = true
  · rw [if_pos h1]
    rw [contains_iff] at h1
    exact ⟨fun e => absurd h1 e.1, fun _ => rfl⟩
  rw [if_neg h1]
  rw [contains_iff] at h1
  by_cases h2 : contains "Date (yyyy.mm.dd)".toList p.name = true
  · rw [if_pos h2]
    rw [contains_iff] at h2
    exact ⟨fun e => absurd h2 e.2.1, fun _ => rfl⟩
  rw [if_neg h2]
  rw [contains_iff] at h2
  by_cases h3 : contains "Time (hh:mm:ss.ms)".toList p.name = true
  · rw [if_pos h3]
    rw [contains_iff] at h3
    exact ⟨fun _ => rfl, fun e => absurd ⟨h1, h2, h3⟩ e⟩
  rw [if_neg h3]
  rw [contains_iff] at h3
  exact ⟨fun e => absurd e.2.2 h3, fun _ => rfl⟩

theorem store_cal (h : Header) (p : Param) : (IsCalibration p.name → (st h p).calibration = some p.value) ∧ (¬ IsCalibration p.name → (st h p).calibration = h.calibration) := by
  unfold IsCalibration
  simp only [st, store]
  by_cases h1 : contains "Calibration file".toList p.name = true
  · rw [if_pos h1]
    rw [contains_iff] at h1
    exact ⟨fun _ => rfl, fun e => absurd h1 e⟩
  rw [if_neg h1]
  rw [contains_iff] at h1
  refine ⟨fun e => absurd e h1, fun _ => ?_⟩
  split
  · rfl
  split <;> rfl

theorem attrName_key (n : Text) : attrName n = key n := by
  unfold attrName lower key
  rw [List.map_map]
  rfl

theorem store_attr (h : Header) (p : Param) (k : Text) : (IsOther p.name ∧ key p.name = k → getKw k (st h p).attrs = some p.value) ∧
    (¬ (IsOther p.name ∧ key p.name = k) → getKw k (st h p).attrs = getKw k h.attrs) := by
  unfold IsOther IsCalibration
  simp only [st, store]
  by_cases h1 : contains "Calibration file".toList p.name = true
  · rw [if_pos h1]
    rw [contains_iff] at h1
    exact ⟨fun e => absurd h1 e.1.1, fun _ => rfl⟩
  rw [if_neg h1]
  rw [contains_iff] at h1
  by_cases h2 : contains "Date (yyyy.mm.dd)".toList p.name = true
  · rw [if_pos h2]
    rw [contains_iff] at h2
    exact ⟨fun e => absurd h2 e.1.2.1, fun _ => rfl⟩
  rw [if_neg h2]
  rw [contains_iff] at h2
  by_cases h3 : contains "Time (hh:mm:ss.ms)".toList p.name = true
  · rw [if_pos h3]
    rw [contains_iff] at h3
    exact ⟨fun e => absurd h3 e.1.2.2, fun _ => rfl⟩
  rw [if_neg h3]
  rw [contains_iff] at h3
  dsimp only
  rw [getKw_setKw, attrName_key]
  constructor
  · rintro ⟨_, rfl⟩
    rw [if_pos rfl]
  · intro e
    rw [if_neg]
    rintro rfl
    exact e ⟨⟨h1, h2, h3⟩, rfl⟩

/-- What the header says of a kind is found. -/
theorem fold_says {kind : Text → Prop} {f : Header → Option Text} (hf : ∀ h p, (kind p.name → f (st h p) = some p.value) ∧ (¬ kind p.name → f (st h p) = f h)) {v : Text} :
    ∀ (ps : List Param) (h : Header), (∀ p ∈ ps, kind p.name → p.value = v) → ((∃ p ∈ ps, kind p.name) ∨ f h = some v) → f (ps.foldl st h) = some v
  | [], h, _, hv => by
    rcases hv with ⟨p, hp, _⟩ | hv
    · simp at hp
    · exact hv
  | p :: ps, h, hall, hv => by
    rw [List.foldl_cons]
    apply fold_says hf ps _ fun q hq => hall q (List.mem_cons_of_mem _ hq)
    by_cases hk : kind p.name
    · right
      rw [(hf h p).1 hk, hall p (List.mem_cons_self ..) hk]
    · rcases hv with ⟨q, hq, hkq⟩ | hv
      · rcases List.mem_cons.1 hq with rfl | hq
        · exact absurd hkq hk
        · exact Or.inl ⟨q, hq, hkq⟩
      · right
        rw [(hf h p).2 hk, hv]

theorem fold_silent {kind : Text → Prop} {f : Header → Option Text} (hf : ∀ h p, (kind p.name → f (st h p) = some p.value) ∧ (¬ kind p.name → f (st h p) = f h)) :
    ∀ (ps : List Param) (h : Header), (∀ p ∈ ps, ¬ kind p.name) → f (ps.foldl st h) = f h
  | [], _, _ => rfl
  | p :: ps, h, hall => by
    rw [List.foldl_cons, fold_silent hf ps _ fun q hq => hall q (List.mem_cons_of_mem _ hq), (hf h p).2 (hall p (List.mem_cons_self ..))]

theorem lastWord_of {q w : Text} (h : LastWord q w) : lastWord q = w := by
  obtain ⟨hw, rfl | ⟨a, rfl⟩⟩ := h
  · unfold lastWord
    rw [splitChar_none hw]
    rfl
  · unfold lastWord
    have : ∀ a : Text, ∃ l, splitChar ' ' (a ++ ' ' :: w) = l ++ [w] := by
      intro a
      induction a with
      | nil => exact ⟨[[]], by simp [splitChar, splitChar_none hw]⟩
      | cons c a ih =>
        obtain ⟨l, hl⟩ := ih
        rw [List.cons_append, splitChar, hl]
        by_cases hc : c = ' '
        · rw [if_pos hc]
          exact ⟨[] :: l, rfl⟩
        · rw [if_neg hc]
          cases l with
          | nil =>
            exfalso
            have := congrArg List.length hl
            have h2 : ∀ a : Text, 2 ≤ (splitChar ' ' (a ++ ' ' :: w)).length := by
              intro a
              induction a with
              | nil => simp [splitChar, splitChar_none hw]
              | cons d a ih =>
                rw [List.cons_append, splitChar]
                split
                · simp; omega
                · cases hs : splitChar ' ' (a ++ ' ' :: w) with
                  | nil => exact absurd hs (splitChar_ne_nil _ _)
                  | cons p ps =>
                    rw [hs] at ih
                    simpa using ih
            have := h2 a
            simp [hl] at this
          | cons p l => exact ⟨(c :: p) :: l, rfl⟩
    obtain ⟨l, hl⟩ := this a
    rw [hl]
    simp

/-! ### The table -/

/-- Columns are stored under their names. -/
theorem fold_columns {t : Table} {col : Text → List Text} : ∀ (cs : List Text) (d : Data), cs.Nodup → (∀ c ∈ cs, column t (under c) = .ok (col c)) →
    ∃ d', cs.foldlM (readColumn t) d = .ok d' ∧ (("Notes".toList ∈ cs → d'.notes = some (col "Notes".toList)) ∧ ("Notes".toList ∉ cs → d'.notes = d.notes)) ∧
      (("Time".toList ∈ cs → d'.times = some (col "Time".toList)) ∧ ("Time".toList ∉ cs → d'.times = d.times)) ∧
      ∀ q, q ≠ "Notes".toList → q ≠ "Time".toList → (q ∈ cs → getKw q d'.dict = some (col q)) ∧ (q ∉ cs → getKw q d'.dict = getKw q d.dict)
  | [], d, _, _ => ⟨d, rfl, ⟨by simp, fun _ => rfl⟩, ⟨by simp, fun _ => rfl⟩, fun q _ _ => ⟨by simp, fun _ => rfl⟩⟩
  | c :: cs, d, hnd, hc => by
    rw [List.nodup_cons] at hnd
    have h1 := hc c (List.mem_cons_self ..)
    obtain ⟨d1, hd1, hn, ht, hq⟩ : ∃ d1, readColumn t d c = .ok d1 ∧ d1.notes = (if c = "Notes".toList then some (col c) else d.notes) ∧ d1.times = (if c = "Time".toList then some (col c) else d.times) ∧
        ∀ q, q ≠ "Notes".toList → q ≠ "Time".toList → getKw q d1.dict = if q = c then some (col c) else getKw q d.dict := by
      unfold readColumn
      have : (c.map fun c => if c = ' ' then '_' else c) = under c := rfl
      rw [this, h1]
      simp only [bind, Except.bind]
      by_cases e1 : c = "Notes".toList
      · rw [if_pos e1]
        refine ⟨_, rfl, by rw [if_pos e1], ?_, ?_⟩
        · have e2 : ¬ c = "Time".toList := by rw [e1]; decide
          rw [if_neg e2]
        · intro q hq1 _
          rw [if_neg (fun e => hq1 (e.trans e1))]
      · rw [if_neg e1]
        by_cases e2 : c = "Time".toList
        · rw [if_pos e2]
          refine ⟨_, rfl, by rw [if_neg e1], by rw [if_pos e2], ?_⟩
          intro q _ hq2
          rw [if_neg (fun e => hq2 (e.trans e2))]
        · rw [if_neg e2]
          refine ⟨_, rfl, by rw [if_neg e1], by rw [if_neg e2], ?_⟩
          intro q _ _
          dsimp only
          rw [getKw_setKw]
    obtain ⟨d', hd', hn', ht', hq'⟩ := fold_columns cs d1 hnd.2 fun x hx => hc x (List.mem_cons_of_mem _ hx)
    refine ⟨d', ?_, ⟨?_, ?_⟩, ⟨?_, ?_⟩, ?_⟩
    · rw [List.foldlM_cons, hd1]
      exact hd'
    · intro hm
      by_cases e : "Notes".toList ∈ cs
      · exact hn'.1 e
      · rw [hn'.2 e, hn]
        rcases List.mem_cons.1 hm with hm | hm
        · rw [if_pos hm.symm, ← hm]
        · exact absurd hm e
    · intro hm
      rw [hn'.2 fun e => hm (List.mem_cons_of_mem _ e), hn, if_neg]
      rintro rfl
      exact hm (List.mem_cons_self ..)
    · intro hm
      by_cases e : "Time".toList ∈ cs
      · exact ht'.1 e
      · rw [ht'.2 e, ht]
        rcases List.mem_cons.1 hm with hm | hm
        · rw [if_pos hm.symm, ← hm]
        · exact absurd hm e
    · intro hm
      rw [ht'.2 fun e => hm (List.mem_cons_of_mem _ e), ht, if_neg]
      rintro rfl
      exact hm (List.mem_cons_self ..)
    · intro q q1 q2
      refine ⟨?_, ?_⟩
      · intro hm
        by_cases e : q ∈ cs
        · exact (hq' q q1 q2).1 e
        · rw [(hq' q q1 q2).2 e, hq q q1 q2]
          rcases List.mem_cons.1 hm with rfl | hm
          · rw [if_pos rfl]
          · exact absurd hm e
      · intro hm
        rw [(hq' q q1 q2).2 fun e => hm (List.mem_cons_of_mem _ e), hq q q1 q2, if_neg]
        rintro rfl
        exact hm (List.mem_cons_self ..)

end Verif.Lemmas.Protochips
