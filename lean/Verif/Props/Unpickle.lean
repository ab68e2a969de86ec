import Verif.Spec.Unpickle
/-! C91: pickles of Panta Rhei files cannot reach names outside of the white list. -/
namespace Verif.Props.Unpickle
open Verif.Unpickle Verif.Spec.Unpickle

variable {w : World}

theorem findClass_iff (m n : Text) (s : St) : (Allowed m n → findClass m n s = .ok (.glob m n, { s with trace := .lookup m n :: s.trace })) ∧
    (¬ Allowed m n → findClass m n s = .error .invalidPickle) := by
  have key : ∀ m n, Allowed m n ↔ ∃ names, whiteList.lookup m = some names ∧ n ∈ names := by
    intro m n
    unfold Allowed whiteList
    simp only [List.lookup]
    by_cases h1 : m = "numpy._core.multiarray".toList
    · subst h1
      simp
    by_cases h2 : m = "numpy.core.multiarray".toList
    · subst h2
      simp
    by_cases h3 : m = "numpy".toList
    · subst h3
      simp
    by_cases h4 : m = "_codecs".toList
    · subst h4
      simp
    · have e1 : (m == "numpy._core.multiarray".toList) = false := by simpa using h1
      have e2 : (m == "numpy.core.multiarray".toList) = false := by simpa using h2
      have e3 : (m == "numpy".toList) = false := by simpa using h3
      have e4 : (m == "_codecs".toList) = false := by simpa using h4
      rw [e1, e2, e3, e4]
      simp only [h1, h2, h3, h4, false_and, or_self, false_iff]
      rintro ⟨_, h, _⟩
      exact absurd h (by simp)
  unfold findClass
  constructor
  · intro h
    obtain ⟨names, h1, h2⟩ := (key m n).1 h
    rw [h1]
    dsimp only
    rw [if_pos h2]
  · intro h
    cases hl : whiteList.lookup m with
    | none => rfl
    | some names =>
      dsimp only
      rw [if_neg]
      intro hn
      exact h ((key m n).2 ⟨names, hl, hn⟩)

/-- What holds for all objects of the machine. -/
structure All (P : Obj → Prop) (Q : Event → Prop) (s : St) : Prop where
  stack : ∀ o ∈ s.stack, P o
  below : ∀ b ∈ s.below, ∀ o ∈ b, P o
  memo : ∀ e ∈ s.memo, P e.2
  trace : ∀ e ∈ s.trace, Q e

/-- Steps keep what holds for plain data, allowed names, containers, and results. -/
structure Kept (w : World) (P : Obj → Prop) (Q : Event → Prop) : Prop where
  text : ∀ t, P (.text t)
  data : ∀ n, P (.data n)
  glob : ∀ m n, Allowed m n → P (.glob m n)
  box : ∀ l, (∀ o ∈ l, P o) → P (.box l)
  args : ∀ o l, argsOf o = some l → P o → ∀ a ∈ l, P a
  lookup : ∀ m n, Allowed m n → Q (.lookup m n)
  call : ∀ f args r, P f → (∀ a ∈ args, P a) → w.call f args = some r → P r ∧ Q (.call f args)
  method : ∀ o m args r, P o → (∀ a ∈ args, P a) → w.method o m args = some r → P r ∧ Q (.method o m args)

variable {P : Obj → Prop} {Q : Event → Prop}

theorem kept_find (hk : Kept w P Q) {m n : Text} {s s' : St} {o : Obj} (ha : All P Q s) (h : findClass m n s = .ok (o, s')) : All P Q s' ∧ P o ∧ s'.stack = s.stack := by
  by_cases hal : Allowed m n
  · rw [(findClass_iff m n s).1 hal] at h
    simp only [Except.ok.injEq, Prod.mk.injEq] at h
    obtain ⟨rfl, rfl⟩ := h
    refine ⟨⟨ha.stack, ha.below, ha.memo, ?_⟩, hk.glob _ _ hal, rfl⟩
    intro e he
    rcases List.mem_cons.1 he with rfl | he
    · exact hk.lookup _ _ hal
    · exact ha.trace e he
  · rw [(findClass_iff m n s).2 hal] at h
    exact absurd h (by simp)

theorem kept_call (hk : Kept w P Q) {f : Obj} {args stack : List Obj} {s s' : St} (ha : All P Q s) (hf : P f) (hargs : ∀ a ∈ args, P a) (hst : ∀ o ∈ stack, P o)
    (h : callWith w f args stack s = .ok s') : All P Q s' := by
  unfold callWith at h
  cases hc : w.call f args with
  | none => rw [hc] at h; exact absurd h (by simp)
  | some r =>
    rw [hc] at h
    simp only [Except.ok.injEq] at h
    subst h
    obtain ⟨h1, h2⟩ := hk.call f args r hf hargs hc
    refine ⟨?_, ha.below, ha.memo, ?_⟩
    · intro o ho
      rcases List.mem_cons.1 ho with rfl | ho
      · exact h1
      · exact hst o ho
    · intro e he
      rcases List.mem_cons.1 he with rfl | he
      · exact h2
      · exact ha.trace e he

theorem kept_method (hk : Kept w P Q) {m : Text} {f : Obj} {args stack : List Obj} {s s' : St} (ha : All P Q s) (hf : P f) (hargs : ∀ a ∈ args, P a) (hst : ∀ o ∈ stack, P o)
    (h : methodWith w m f args stack s = .ok s') : All P Q s' := by
  unfold methodWith at h
  cases hc : w.method f m args with
  | none => rw [hc] at h; exact absurd h (by simp)
  | some r =>
    rw [hc] at h
    simp only [Except.ok.injEq] at h
    subst h
    obtain ⟨h1, h2⟩ := hk.method f m args r hf hargs hc
    refine ⟨?_, ha.below, ha.memo, ?_⟩
    · intro o ho
      rcases List.mem_cons.1 ho with rfl | ho
      · exact h1
      · exact hst o ho
    · intro e he
      rcases List.mem_cons.1 he with rfl | he
      · exact h2
      · exact ha.trace e he

theorem kept_popMark {s s' : St} {l : List Obj} (ha : All P Q s) (h : popMark s = .ok (l, s')) : All P Q s' ∧ ∀ o ∈ l, P o := by
  unfold popMark at h
  cases hb : s.below with
  | nil => rw [hb] at h; exact absurd h (by simp)
  | cons b bs =>
    rw [hb] at h
    simp only [Except.ok.injEq, Prod.mk.injEq] at h
    obtain ⟨rfl, rfl⟩ := h
    refine ⟨⟨?_, ?_, ha.memo, ha.trace⟩, fun o ho => ha.stack o (List.mem_reverse.1 ho)⟩
    · intro o ho
      exact ha.below b (by rw [hb]; exact List.mem_cons_self ..) o ho
    · intro c hc
      exact ha.below c (by rw [hb]; exact List.mem_cons_of_mem _ hc)

theorem All.push {s : St} (ha : All P Q s) {o : Obj} (ho : P o) : All P Q { s with stack := o :: s.stack } := by
  refine ⟨?_, ha.below, ha.memo, ha.trace⟩
  intro x hx
  rcases List.mem_cons.1 hx with rfl | hx
  · exact ho
  · exact ha.stack x hx

theorem All.drop {s : St} (ha : All P Q s) {t : List Obj} (ht : ∀ o ∈ t, o ∈ s.stack) : All P Q { s with stack := t } := ⟨fun o ho => ha.stack o (ht o ho), ha.below, ha.memo, ha.trace⟩

theorem mem_lookup {l : List (Nat × Obj)} {i : Nat} {o : Obj} (h : l.lookup i = some o) : ∃ e ∈ l, e.2 = o := by
  induction l with
  | nil => simp at h
  | cons e l ih =>
    obtain ⟨j, v⟩ := e
    rw [List.lookup] at h
    split at h
    · simp only [Option.some.injEq] at h
      exact ⟨(j, v), List.mem_cons_self .., h⟩
    · obtain ⟨e, he, hv⟩ := ih h
      exact ⟨e, List.mem_cons_of_mem _ he, hv⟩

theorem kept_step (hk : Kept w P Q) {s s' : St} {op : Op} (ha : All P Q s) (h : step w s op = .ok s') : All P Q s' := by
  cases op with
  | const n => simp only [step, Except.ok.injEq] at h; subst h; exact ha.push (hk.data n)
  | text t => simp only [step, Except.ok.injEq] at h; subst h; exact ha.push (hk.text t)
  | mark =>
    simp only [step, Except.ok.injEq] at h
    subst h
    refine ⟨by simp, ?_, ha.memo, ha.trace⟩
    intro b hb
    rcases List.mem_cons.1 hb with rfl | hb
    · exact ha.stack
    · exact ha.below b hb
  | pop =>
    unfold step at h
    dsimp only at h
    split at h
    · next o t hs =>
      simp only [Except.ok.injEq] at h
      subst h
      exact ha.drop fun x hx => by rw [hs]; exact List.mem_cons_of_mem _ hx
    · cases hp : popMark s with
      | error e => rw [hp] at h; exact absurd h (by simp [Except.map])
      | ok r =>
        rw [hp] at h
        simp only [Except.map, Except.ok.injEq] at h
        subst h
        exact (kept_popMark ha hp).1
  | popMark =>
    unfold step at h
    dsimp only at h
    cases hp : popMark s with
    | error e => rw [hp] at h; exact absurd h (by simp [Except.map])
    | ok r =>
      rw [hp] at h
      simp only [Except.map, Except.ok.injEq] at h
      subst h
      exact (kept_popMark ha hp).1
  | dup =>
    unfold step at h
    dsimp only at h
    split at h
    · next o t hs =>
      simp only [Except.ok.injEq] at h
      subst h
      rw [← hs]
      exact ha.push (ha.stack o (by rw [hs]; exact List.mem_cons_self ..))
    · exact absurd h (by simp)
  | collect n =>
    unfold step at h
    dsimp only at h
    split at h
    · exact absurd h (by simp)
    · simp only [Except.ok.injEq] at h
      subst h
      refine (ha.drop fun o ho => List.mem_of_mem_drop ho).push (hk.box _ fun o ho => ha.stack o ?_)
      exact List.mem_of_mem_take (List.mem_reverse.1 ho)
  | collectMark =>
    unfold step at h
    dsimp only at h
    split at h
    · exact absurd h (by simp)
    · next l s1 hp =>
      simp only [Except.ok.injEq] at h
      subst h
      obtain ⟨h1, h2⟩ := kept_popMark ha hp
      exact h1.push (hk.box l h2)
  | put i =>
    unfold step at h
    dsimp only at h
    split at h
    · next o t hs =>
      simp only [Except.ok.injEq] at h
      subst h
      refine ⟨ha.stack, ha.below, ?_, ha.trace⟩
      intro e he
      rcases List.mem_cons.1 he with rfl | he
      · exact ha.stack o (by rw [hs]; exact List.mem_cons_self ..)
      · exact ha.memo e he
    · exact absurd h (by simp)
  | get i =>
    unfold step at h
    dsimp only at h
    split at h
    · next o hm =>
      simp only [Except.ok.injEq] at h
      subst h
      obtain ⟨e, he, rfl⟩ := mem_lookup hm
      exact ha.push (ha.memo e he)
    · exact absurd h (by simp)
  | global m n =>
    unfold step at h
    dsimp only at h
    split at h
    · exact absurd h (by simp)
    · next o s1 hf =>
      simp only [Except.ok.injEq] at h
      subst h
      obtain ⟨h1, h2, _⟩ := kept_find hk ha hf
      exact h1.push h2
  | stackGlobal =>
    unfold step at h
    dsimp only at h
    split at h
    · next n m t hs =>
      split at h
      · exact absurd h (by simp)
      · next o s1 hf =>
        simp only [Except.ok.injEq] at h
        subst h
        obtain ⟨h1, h2, h3⟩ := kept_find hk ha hf
        exact (h1.drop (t := t) fun x hx => by rw [h3, hs]; simp [hx]).push h2
    · exact absurd h (by simp)
  | inst m n =>
    unfold step at h
    dsimp only at h
    split at h
    · exact absurd h (by simp)
    · next o s1 hf =>
      obtain ⟨h1, h2, _⟩ := kept_find hk ha hf
      split at h
      · exact absurd h (by simp)
      · next args s2 hp =>
        obtain ⟨h3, h4⟩ := kept_popMark h1 hp
        exact kept_call hk h3 h2 h4 h3.stack h
  | obj =>
    unfold step at h
    dsimp only at h
    split at h
    · exact absurd h (by simp)
    · next f args s2 hp =>
      obtain ⟨h3, h4⟩ := kept_popMark ha hp
      exact kept_call hk h3 (h4 f (List.mem_cons_self ..)) (fun a haa => h4 a (List.mem_cons_of_mem _ haa)) h3.stack h
    · exact absurd h (by simp)
  | newobj =>
    unfold step at h
    dsimp only at h
    split at h
    · next a c t hs =>
      have hm : ∀ o ∈ a :: c :: t, P o := fun o ho => ha.stack o (by rw [hs]; exact ho)
      split at h
      · next args hargs =>
        have hc := hm c (by simp)
        refine kept_method hk ha hc ?_ (fun o ho => hm o (by simp [ho])) h
        intro x hx
        rcases List.mem_cons.1 hx with rfl | hx
        · exact hc
        · exact hk.args _ _ hargs (hm a (by simp)) x hx
      · exact absurd h (by simp)
    · exact absurd h (by simp)
  | newobjEx =>
    unfold step at h
    dsimp only at h
    split at h
    · next k a c t hs =>
      have hm : ∀ o ∈ k :: a :: c :: t, P o := fun o ho => ha.stack o (by rw [hs]; exact ho)
      split at h
      · next args hargs =>
        have hc := hm c (by simp)
        refine kept_method hk ha hc ?_ (fun o ho => hm o (by simp [ho])) h
        intro x hx
        rw [List.mem_append, List.mem_cons, List.mem_singleton] at hx
        rcases hx with (rfl | hx) | rfl
        · exact hc
        · exact hk.args _ _ hargs (hm a (by simp)) x hx
        · exact hm x (by simp)
      · exact absurd h (by simp)
    · exact absurd h (by simp)
  | reduce =>
    unfold step at h
    dsimp only at h
    split at h
    · next a f t hs =>
      have hm : ∀ o ∈ a :: f :: t, P o := fun o ho => ha.stack o (by rw [hs]; exact ho)
      split at h
      · next args hargs =>
        exact kept_call hk ha (hm f (by simp)) (hk.args _ _ hargs (hm a (by simp))) (fun o ho => hm o (by simp [ho])) h
      · exact absurd h (by simp)
    · exact absurd h (by simp)
  | build =>
    unfold step at h
    dsimp only at h
    split at h
    · next st o t hs =>
      have hm : ∀ x ∈ st :: o :: t, P x := fun x hx => ha.stack x (by rw [hs]; exact hx)
      refine kept_method hk ha (hm o (by simp)) ?_ (fun x hx => hm x (by simp [hx])) h
      intro x hx
      rw [List.mem_singleton] at hx
      subst hx
      exact hm x (by simp)
    · exact absurd h (by simp)
  | item m n =>
    unfold step at h
    dsimp only at h
    split at h
    · next o t hs =>
      have hm : ∀ x ∈ o :: t, P x := fun x hx => ha.stack x (List.mem_of_mem_drop (by rw [hs]; exact hx))
      refine kept_method hk ha (hm o (by simp)) ?_ (fun x hx => hm x (by simp [hx])) h
      intro x hx
      exact ha.stack x (List.mem_of_mem_take (List.mem_reverse.1 hx))
    · exact absurd h (by simp)
  | items m =>
    unfold step at h
    dsimp only at h
    split at h
    · exact absurd h (by simp)
    · next args s1 hp =>
      obtain ⟨h1, h2⟩ := kept_popMark ha hp
      split at h
      · next o t hs =>
        have hm : ∀ x ∈ o :: t, P x := fun x hx => h1.stack x (by rw [hs]; exact hx)
        exact kept_method hk h1 (hm o (by simp)) h2 (fun x hx => hm x (by simp [hx])) h
      · exact absurd h (by simp)
  | ext c =>
    unfold step at h
    dsimp only at h
    split at h
    · exact absurd h (by simp)
    · next m n hr =>
      split at h
      · exact absurd h (by simp)
      · next o s1 hf =>
        simp only [Except.ok.injEq] at h
        subst h
        obtain ⟨h1, h2, _⟩ := kept_find hk ha hf
        exact h1.push h2
  | persid => simp [step] at h
  | stop => simp only [step, Except.ok.injEq] at h; subst h; exact ha

theorem run_other {op : Op} (hop : op ≠ .stop) (ops : List Op) (s : St) : run w (op :: ops) s = match step w s op with
    | .error e => (.error e, s.trace)
    | .ok s => run w ops s := by
  cases op <;> first | rfl | exact absurd rfl hop

theorem kept_run (hk : Kept w P Q) : ∀ {ops : List Op} {s : St}, All P Q s → (∀ e ∈ (run w ops s).2, Q e) ∧ ∀ o, (run w ops s).1 = .ok o → P o
  | [], s, ha => ⟨ha.trace, fun o h => absurd h (by simp [run])⟩
  | op :: ops, s, ha => by
    by_cases hop : op = .stop
    · subst hop
      unfold run
      cases hs : s.stack with
      | nil => exact ⟨ha.trace, fun o h => absurd h (by simp)⟩
      | cons o t =>
        refine ⟨ha.trace, fun x h => ?_⟩
        simp only [Except.ok.injEq] at h
        subst h
        exact ha.stack o (by rw [hs]; exact List.mem_cons_self ..)
    · rw [run_other hop]
      cases hst : step w s op with
      | error e => exact ⟨ha.trace, fun o h => absurd h (by simp)⟩
      | ok s' => exact kept_run hk (kept_step hk ha hst)

theorem start_all : All P Q start := ⟨by simp [start], by simp [start], by simp [start], by simp [start]⟩

/-- **C91.** Whatever a pickle contains, and whatever the callables do: no name is looked up (and no module imported for it) that is not on the white list. -/
theorem C91_lookups (w : World) (hasObject : Bool) (ops : List Op) (m n : Text) (h : Event.lookup m n ∈ (readPickled w hasObject ops).2) : Allowed m n := by
  unfold readPickled at h
  split at h
  · have hk : Kept w (fun _ => True) (fun e => ∀ m n, e = .lookup m n → Allowed m n) := by
      refine ⟨fun _ => trivial, fun _ => trivial, fun _ _ _ => trivial, fun _ _ => trivial, fun _ _ _ _ _ _ => trivial, ?_, ?_, ?_⟩
      · intro m n h m' n' e
        simp only [Event.lookup.injEq] at e
        rw [← e.1, ← e.2]
        exact h
      · intro f args r _ _ _
        exact ⟨trivial, fun m n e => absurd e (by simp)⟩
      · intro f m args r _ _ _
        exact ⟨trivial, fun m n e => absurd e (by simp)⟩
    exact (kept_run hk start_all).1 _ h m n rfl
  · simp at h

/-- **C91.** If the listed callables only return data, nothing but them is ever called, given as an argument, or asked for a method, and the result holds no other callable. -/
theorem C91_calls (hw : Closed w) (hasObject : Bool) (ops : List Op) : (∀ e ∈ (readPickled w hasObject ops).2, Safe e) ∧ ∀ o, (readPickled w hasObject ops).1 = .ok o → Good o := by
  unfold readPickled
  split
  · have hk : Kept w Good Safe := by
      refine ⟨.text, .data, fun m n h => .glob h, fun l h => .box h, ?_, fun m n h => h, fun f args r h1 h2 h3 => ⟨hw.call f args r h1 h2 h3, h1, h2⟩,
        fun f m args r h1 h2 h3 => ⟨hw.method f m args r h1 h2 h3, h1, h2⟩⟩
      intro o l h hg
      cases o with
      | box l' =>
        simp only [argsOf, Option.some.injEq] at h
        subst h
        cases hg with
        | box hb => exact hb
      | text t => simp [argsOf] at h
      | data t => simp [argsOf] at h
      | glob t => simp [argsOf] at h
      | result t => simp [argsOf] at h
    exact kept_run hk start_all
  · exact ⟨by simp, fun o h => absurd h (by simp)⟩

/-- The machine after some instructions. -/
def after (w : World) : List Op → St → Option St
  | [], s => some s
  | .stop :: _, _ => none
  | op :: ops, s => match step w s op with
    | .error _ => none
    | .ok s => after w ops s

/-- **C91.** An instruction that asks for another name ends the reading with `InvalidPickleError`; no instruction after it has any effect. -/
theorem C91_rejects {before rest : List Op} {op : Op} {s : St} (hs : after w before start = some s) {m n : Text} (ha : Asks w s op m n) (hno : ¬ Allowed m n) :
    readPickled w true (before ++ op :: rest) = (.error .invalidPickle, s.trace) := by
  have key : ∀ (before : List Op) (s0 : St), after w before s0 = some s → run w (before ++ op :: rest) s0 = (.error .invalidPickle, s.trace) := by
    intro before
    induction before with
    | nil =>
      intro s0 h
      simp only [after, Option.some.injEq] at h
      subst h
      have hf := (findClass_iff m n s0).2 hno
      have hst : step w s0 op = .error .invalidPickle := by
        cases ha with
        | global => simp only [step, hf]
        | inst => simp only [step, hf]
        | stack hs => simp only [step, hs, hf]
        | ext hr => simp only [step, hr, hf]
      have hne : op ≠ .stop := by
        intro e
        subst e
        simp [step] at hst
      rw [List.nil_append, run_other hne, hst]
    | cons o before ih =>
      intro s0 h
      by_cases ho : o = .stop
      · subst ho
        simp [after] at h
      · rw [List.cons_append, run_other ho]
        have e : after w (o :: before) s0 = match step w s0 o with
            | .error _ => none
            | .ok s => after w before s := by
          cases o <;> first | rfl | exact absurd rfl ho
        rw [e] at h
        cases hst : step w s0 o with
        | error e => rw [hst] at h; exact absurd h (by simp)
        | ok s1 =>
          rw [hst] at h
          exact ih s1 h
  exact key before start hs

/-- **C91.** Arrays without objects are never unpickled. -/
theorem C91_plain (w : World) (ops : List Op) : readPickled w false ops = (.error .other, []) := rfl

/-- **C91.** The listed names can be used: the instruction puts the callable on the stack. -/
theorem C91_accepts {m n : Text} (h : Allowed m n) (s : St) : step w s (.global m n) = .ok { s with stack := .glob m n :: s.stack, trace := .lookup m n :: s.trace } := by
  simp only [step, (findClass_iff m n s).1 h]

/-- Calls that return plain results. -/
def someWorld : World := ⟨fun _ args => some (.result 0 args), fun _ _ args => some (.result 1 args), fun _ => none⟩

example : Closed someWorld := by
  refine ⟨fun f args r _ h e => ?_, fun f m args r _ h e => ?_⟩
  · simp only [someWorld, Option.some.injEq] at e
    rw [← e]
    exact .result h
  · simp only [someWorld, Option.some.injEq] at e
    rw [← e]
    exact .result h
/-- An array: `_reconstruct(ndarray, (0,), b"b")`. -/
example : ∃ o, (readPickled someWorld true [.global "numpy._core.multiarray".toList "_reconstruct".toList, .global "numpy".toList "ndarray".toList, .const 0, .collect 1, .const 1, .collect 3, .reduce,
    .const 2, .build, .stop]).1 = .ok o := ⟨_, rfl⟩
/-- `os.system("...")`. -/
example : ∃ s, after someWorld [.mark] start = some s ∧ Asks someWorld s (.inst "os".toList "system".toList) "os".toList "system".toList ∧ ¬ Allowed "os".toList "system".toList :=
  ⟨_, rfl, .inst _ _, by unfold Allowed; decide⟩

end Verif.Props.Unpickle
