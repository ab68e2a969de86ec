import Verif.Spec.Nexus
/-! Lemmas on NeXus files: the search for datasets. -/
namespace Verif.Props.Nexus
open Verif Verif.Nexus

/-- From a node along a path. -/
def From (hard : Bool) (pa : Attrs) (pk : Kids) (n : Node) : List Text → Node → Attrs → Kids → Prop
  | [], m, qa, qk => Behind hard n m ∧ qa = pa ∧ qk = pk
  | k :: p, m, qa, qk => ∃ a l, Behind hard n (.grp a l) ∧ At hard a l (k :: p) m qa qk

/-- What is found is described by its record. -/
def Describes (x : Found) (path : Text) (m : Node) (qa : Attrs) (qk : Kids) : Prop :=
  x.path = path ∧ x.parentAttrs = qa ∧ x.parentKids = qk ∧
  ((x.nx = true ∧ m = .grp x.attrs x.kids ∧ NXdata x.attrs ∧ x.value = .num 0) ∨ (x.nx = false ∧ m = .ds x.attrs x.value ∧ 2 ≤ x.value.size ∧ x.kids = []))

def keep (hard : Bool) (x : Found) : Bool := !hard || x.direct

theorem isData_iff (a : Attrs) : isData a = true ↔
    getKw "NX_class".toList a = some (.bytes "NXdata".toList) ∨ getKw "NX_class".toList a = some (.str "NXdata".toList) := by
  unfold isData
  cases getKw "NX_class".toList a with
  | none => simp
  | some v => cases v <;> simp

theorem nxdata_iff (a : Attrs) : (isData a && (getKw "signal".toList a).isSome) = true ↔ NXdata a := by
  unfold NXdata
  rw [Bool.and_eq_true, isData_iff, Option.isSome_iff_exists]

theorem getlink_none {soft : Option Text} {a : Attrs} {p : Text} (h : getKw "target".toList a = none) : getlink soft a p = .ok soft := by
  unfold getlink; rw [h]

theorem mem_foundGroup {path : Text} {a : Attrs} {kids : Kids} {pa : Attrs} {pk : Kids} {t : Option Text} {x : Found} :
    x ∈ foundGroup path a kids pa pk t ↔ NXdata a ∧ x = ⟨true, path, a, kids, .num 0, pa, pk, t.isNone⟩ := by
  unfold foundGroup
  by_cases h : NXdata a
  · rw [if_pos ((nxdata_iff a).2 h)]; simp [h]
  · rw [if_neg (fun e => h ((nxdata_iff a).1 e))]; simp [h]

theorem foundDs_ok {soft : Option Text} {path : Text} {a : Attrs} {v : Leaf} {pa : Attrs} {pk : Kids} {r : List Found}
    (h : foundDs soft path a v pa pk = .ok r) :
    (2 ≤ v.size ∧ ∃ t, getlink soft pa path = .ok t ∧ r = [⟨false, path, a, [], v, pa, pk, t.isNone⟩]) ∨ (¬ 2 ≤ v.size ∧ r = []) := by
  unfold foundDs at h
  by_cases hv : v.size ≥ 2
  · rw [if_pos hv] at h
    cases ht : getlink soft pa path with
    | error e => rw [ht] at h; cases h
    | ok t => rw [ht] at h; exact .inl ⟨hv, t, rfl, (Except.ok.inj h).symm⟩
  · rw [if_neg hv] at h
    exact .inr ⟨hv, (Except.ok.inj h).symm⟩

/-- Links are no direct objects. -/
theorem soft_kept {pa : Attrs} {pk : Kids} (ht : getKw "target".toList pa = none) {p path : Text} :
    ∀ {n : Node} {q : Text} {r : List Found}, findKid true pa pk (some q) path n = .ok r → ∀ x ∈ r, x.direct = false
  | .ds a v, q, r, h => by
    rw [findKid] at h
    rcases foundDs_ok h with ⟨_, t, hg, rfl⟩ | ⟨_, rfl⟩
    · rw [getlink_none ht] at hg
      obtain rfl := (Except.ok.inj hg).symm
      intro x hx; rw [List.mem_singleton.1 hx]; rfl
    · intro x hx; exact absurd hx List.not_mem_nil
  | .grp a l, q, r, h => by
    rw [findKid, getlink_none ht] at h
    have h : Except.ok (foundGroup path a l pa pk (some q)) = Except.ok r := h
    obtain rfl := Except.ok.inj h
    intro x hx
    rw [(mem_foundGroup.1 hx).2]; rfl
  | .soft p' n, q, r, h => by
    rw [findKid] at h
    exact soft_kept ht (p := p) h
  | .ext n, q, r, h => by
    rw [findKid] at h
    exact soft_kept ht (p := p) h

theorem behind_ds {hard : Bool} {a : Attrs} {v : Leaf} {m : Node} (h : Behind hard (.ds a v) m) : m = .ds a v := by cases h; rfl
theorem behind_grp {hard : Bool} {a : Attrs} {l : Kids} {m : Node} (h : Behind hard (.grp a l) m) : m = .grp a l := by cases h; rfl

theorem at_last {hard : Bool} {a qa : Attrs} {l qk : Kids} {k : Text} {p : List Text} {m : Node} :
    At hard a l (k :: p) m qa qk ↔ ∃ n, (k, n) ∈ l ∧ From hard a l n p m qa qk := by
  constructor
  · intro h
    cases h with
    | last h b => exact ⟨_, h, b, rfl, rfl⟩
    | step h b r =>
      refine ⟨_, h, ?_⟩
      cases p with
      | nil => cases r
      | cons k' p' => exact ⟨_, _, b, r⟩
  · rintro ⟨n, h, f⟩
    cases p with
    | nil => obtain ⟨b, rfl, rfl⟩ := f; exact .last h b
    | cons k' p' => obtain ⟨a', l', b, r⟩ := f; exact .step h b r

theorem pathText_cons (k : Text) (p : List Text) : pathText (k :: p) = '/' :: k ++ pathText p := rfl

mutual
/-- What is found below a node. -/
theorem kid_iff {hard : Bool} : ∀ (n : Node) {pa : Attrs} {pk : Kids} {soft : Option Text} {path : Text} {r : List Found}
    (_ht : hard = true → getKw "target".toList pa = none ∧ soft = none) (_hn : hard = true → NoTarget n)
    (_h : findKid hard pa pk soft path n = .ok r),
    (∀ x ∈ r, keep hard x = true → ∃ p m qa qk, From hard pa pk n p m qa qk ∧ Describes x (path ++ pathText p) m qa qk) ∧
    (∀ p m qa qk, From hard pa pk n p m qa qk → (∃ a l, m = .grp a l ∧ NXdata a) ∨ (∃ a v, m = .ds a v ∧ 2 ≤ v.size) →
      ∃ x ∈ r, keep hard x = true ∧ Describes x (path ++ pathText p) m qa qk)
  | .ds a v, pa, pk, soft, path, r, ht, hn, h => by
    rw [findKid] at h
    rcases foundDs_ok h with ⟨hv, t, hg, rfl⟩ | ⟨hv, rfl⟩
    · constructor
      · intro x hx _
        obtain rfl := List.mem_singleton.1 hx
        exact ⟨[], .ds a v, pa, pk, ⟨.same _, rfl, rfl⟩, by simp [pathText], rfl, rfl, .inr ⟨rfl, rfl, hv, rfl⟩⟩
      · intro p m qa qk f _
        cases p with
        | cons k p => obtain ⟨a', l', b, _⟩ := f; cases behind_ds b
        | nil =>
          obtain ⟨b, rfl, rfl⟩ := f
          obtain rfl := behind_ds b
          refine ⟨_, List.mem_singleton.2 rfl, ?_, by simp [pathText], rfl, rfl, .inr ⟨rfl, rfl, hv, rfl⟩⟩
          unfold keep
          cases hard with
          | false => rfl
          | true =>
            obtain ⟨h1, rfl⟩ := ht rfl
            rw [getlink_none h1] at hg
            obtain rfl := Except.ok.inj hg
            rfl
    · constructor
      · intro x hx; exact absurd hx List.not_mem_nil
      · intro p m qa qk f d
        cases p with
        | cons k p => obtain ⟨a', l', b, _⟩ := f; cases behind_ds b
        | nil =>
          obtain ⟨b, rfl, rfl⟩ := f
          obtain rfl := behind_ds b
          rcases d with ⟨_, _, e, _⟩ | ⟨_, _, e, hs⟩
          · cases e
          · cases e; exact absurd hs hv
  | .grp a l, pa, pk, soft, path, r, ht, hn, h => by
    rw [findKid] at h
    cases hg : getlink soft pa path with
    | error e => rw [hg] at h; cases h
    | ok t =>
      rw [hg] at h
      have ht0 : hard = true → t = none := fun e => by
        obtain ⟨h1, h2⟩ := ht e
        rw [getlink_none h1, h2] at hg
        exact (Except.ok.inj hg).symm
      have hc : (hard && t.isSome) = false := by
        cases hard with
        | false => rfl
        | true => rw [ht0 rfl]; rfl
      simp only [hc, Bool.false_eq_true, if_false] at h
      cases hk : findKids hard a l path l with
      | error e => rw [hk] at h; cases h
      | ok r' =>
        rw [hk] at h
        have h : Except.ok (foundGroup path a l pa pk t ++ r') = Except.ok r := h
        obtain rfl := Except.ok.inj h
        have hn' : hard = true → getKw "target".toList a = none ∧ ∀ e ∈ l, NoTarget e.2 := fun e => by
          cases hn e with
          | grp h r => exact ⟨h, r⟩
        have ih := kids_iff l (fun e => (hn' e).1) (fun e => (hn' e).2) hk
        have kp : keep hard ⟨true, path, a, l, .num 0, pa, pk, t.isNone⟩ = true := by
          unfold keep
          cases hard with
          | false => rfl
          | true => rw [ht0 rfl]; rfl
        constructor
        · intro x hx hkx
          rcases List.mem_append.1 hx with hx | hx
          · obtain ⟨hd, rfl⟩ := mem_foundGroup.1 hx
            exact ⟨[], .grp a l, pa, pk, ⟨.same _, rfl, rfl⟩, by simp [pathText], rfl, rfl, .inl ⟨rfl, rfl, hd, rfl⟩⟩
          · obtain ⟨k, n, p, m, qa, qk, hm, f, d⟩ := ih.1 x hx hkx
            refine ⟨k :: p, m, qa, qk, ⟨a, l, .same _, at_last.2 ⟨n, hm, f⟩⟩, ?_⟩
            rw [pathText_cons]; simpa using d
        · intro p m qa qk f d
          cases p with
          | nil =>
            obtain ⟨b, rfl, rfl⟩ := f
            obtain rfl := behind_grp b
            rcases d with ⟨a', l', e, hd⟩ | ⟨_, _, e, _⟩
            · cases e
              exact ⟨_, List.mem_append_left _ (mem_foundGroup.2 ⟨hd, rfl⟩), kp, by simp [pathText], rfl, rfl, .inl ⟨rfl, rfl, hd, rfl⟩⟩
            · cases e
          | cons k p =>
            obtain ⟨a', l', b, ha⟩ := f
            obtain ⟨rfl, rfl⟩ := Node.grp.inj (behind_grp b)
            obtain ⟨n, hm, f⟩ := at_last.1 ha
            obtain ⟨x, hx, hkx, dx⟩ := ih.2 k n p m qa qk hm f d
            refine ⟨x, List.mem_append_right _ hx, hkx, ?_⟩
            rw [pathText_cons]; simpa using dx
  | .soft p0 n, pa, pk, soft, path, r, ht, hn, h => by
    rw [findKid] at h
    cases hard with
    | false =>
      have ih := kid_iff (hard := false) n (pa := pa) (pk := pk) (by simp) (by simp) h
      constructor
      · intro x hx hk
        obtain ⟨p, m, qa, qk, f, d⟩ := ih.1 x hx hk
        refine ⟨p, m, qa, qk, ?_, d⟩
        cases p with
        | nil => exact ⟨.soft rfl f.1, f.2⟩
        | cons k p => obtain ⟨a', l', b, ha⟩ := f; exact ⟨a', l', .soft rfl b, ha⟩
      · intro p m qa qk f d
        apply ih.2 p m qa qk _ d
        cases p with
        | nil =>
          obtain ⟨b, e⟩ := f
          refine ⟨?_, e⟩
          cases b with
          | same => rcases d with ⟨_, _, e, _⟩ | ⟨_, _, e, _⟩ <;> cases e
          | soft _ b => exact b
        | cons k p =>
          obtain ⟨a', l', b, ha⟩ := f
          cases b with
          | soft _ b => exact ⟨a', l', b, ha⟩
    | true =>
      have hd := soft_kept (ht rfl).1 (p := path) h
      constructor
      · intro x hx hk
        have := hd x hx
        unfold keep at hk
        rw [this] at hk; cases hk
      · intro p m qa qk f d
        cases p with
        | nil =>
          obtain ⟨b, e⟩ := f
          cases b with
          | same => rcases d with ⟨_, _, e, _⟩ | ⟨_, _, e, _⟩ <;> cases e
          | soft h _ => cases h
        | cons k p =>
          obtain ⟨a', l', b, ha⟩ := f
          cases b with
          | soft h _ => cases h
  | .ext n, pa, pk, soft, path, r, ht, hn, h => by
    rw [findKid] at h
    have ih := kid_iff (hard := hard) n (pa := pa) (pk := pk) ht (fun e => by cases hn e with | ext r => exact r) h
    constructor
    · intro x hx hk
      obtain ⟨p, m, qa, qk, f, d⟩ := ih.1 x hx hk
      refine ⟨p, m, qa, qk, ?_, d⟩
      cases p with
      | nil => exact ⟨.ext f.1, f.2⟩
      | cons k p => obtain ⟨a', l', b, ha⟩ := f; exact ⟨a', l', .ext b, ha⟩
    · intro p m qa qk f d
      apply ih.2 p m qa qk _ d
      cases p with
      | nil =>
        obtain ⟨b, e⟩ := f
        refine ⟨?_, e⟩
        cases b with
        | same => rcases d with ⟨_, _, e, _⟩ | ⟨_, _, e, _⟩ <;> cases e
        | ext b => exact b
      | cons k p =>
        obtain ⟨a', l', b, ha⟩ := f
        cases b with
        | ext b => exact ⟨a', l', b, ha⟩
/-- What is found in a group. -/
theorem kids_iff {hard : Bool} : ∀ (l : List (Text × Node)) {pa : Attrs} {pk : Kids} {root : Text} {r : List Found}
    (_ht : hard = true → getKw "target".toList pa = none) (_hn : hard = true → ∀ e ∈ l, NoTarget e.2)
    (_h : findKids hard pa pk root l = .ok r),
    (∀ x ∈ r, keep hard x = true → ∃ k n p m qa qk, (k, n) ∈ l ∧ From hard pa pk n p m qa qk ∧ Describes x (root ++ '/' :: k ++ pathText p) m qa qk) ∧
    (∀ k n p m qa qk, (k, n) ∈ l → From hard pa pk n p m qa qk → (∃ a l, m = .grp a l ∧ NXdata a) ∨ (∃ a v, m = .ds a v ∧ 2 ≤ v.size) →
      ∃ x ∈ r, keep hard x = true ∧ Describes x (root ++ '/' :: k ++ pathText p) m qa qk)
  | [], pa, pk, root, r, ht, hn, h => by
    rw [findKids] at h
    obtain rfl := Except.ok.inj h
    exact ⟨fun x hx => absurd hx List.not_mem_nil, fun k n p m qa qk hm => absurd hm List.not_mem_nil⟩
  | (k0, n0) :: l, pa, pk, root, r, ht, hn, h => by
    rw [findKids] at h
    cases h1 : findKid hard pa pk none (root ++ '/' :: k0) n0 with
    | error e => rw [h1] at h; cases h
    | ok r1 =>
      cases h2 : findKids hard pa pk root l with
      | error e => rw [h1, h2] at h; cases h
      | ok r2 =>
        rw [h1, h2] at h
        have h : Except.ok (r1 ++ r2) = Except.ok r := h
        obtain rfl := Except.ok.inj h
        have i1 := kid_iff n0 (fun e => ⟨ht e, rfl⟩) (fun e => hn e _ List.mem_cons_self) h1
        have i2 := kids_iff l ht (fun e x hx => hn e x (List.mem_cons_of_mem _ hx)) h2
        constructor
        · intro x hx hk
          rcases List.mem_append.1 hx with hx | hx
          · obtain ⟨p, m, qa, qk, f, d⟩ := i1.1 x hx hk
            exact ⟨k0, n0, p, m, qa, qk, List.mem_cons_self, f, d⟩
          · obtain ⟨k, n, p, m, qa, qk, hm, f, d⟩ := i2.1 x hx hk
            exact ⟨k, n, p, m, qa, qk, List.mem_cons_of_mem _ hm, f, d⟩
        · intro k n p m qa qk hm f d
          rcases List.mem_cons.1 hm with e | hm
          · cases e
            obtain ⟨x, hx, hk, dx⟩ := i1.2 p m qa qk f d
            exact ⟨x, List.mem_append_left _ hx, hk, dx⟩
          · obtain ⟨x, hx, hk, dx⟩ := i2.2 k n p m qa qk hm f d
            exact ⟨x, List.mem_append_right _ hx, hk, dx⟩
end

/-! ### Every path once -/

mutual
theorem kid_prefix {hard : Bool} : ∀ (n : Node) {pa : Attrs} {pk : Kids} {soft : Option Text} {path : Text} {r : List Found}
    (_h : findKid hard pa pk soft path n = .ok r), ∀ x ∈ r, x.path = path ∨ ∃ t, x.path = path ++ '/' :: t
  | .ds a v, pa, pk, soft, path, r, h => by
    rw [findKid] at h
    rcases foundDs_ok h with ⟨hv, t, hg, rfl⟩ | ⟨hv, rfl⟩
    · intro x hx; rw [List.mem_singleton.1 hx]; exact .inl rfl
    · intro x hx; exact absurd hx List.not_mem_nil
  | .grp a l, pa, pk, soft, path, r, h => by
    rw [findKid] at h
    cases hg : getlink soft pa path with
    | error e => rw [hg] at h; cases h
    | ok t =>
      rw [hg] at h
      dsimp only at h
      split at h
      · obtain rfl := Except.ok.inj h
        intro x hx; rw [(mem_foundGroup.1 hx).2]; exact .inl rfl
      · cases hk : findKids hard a l path l with
        | error e => rw [hk] at h; cases h
        | ok r' =>
          rw [hk] at h
          have h : Except.ok (foundGroup path a l pa pk t ++ r') = Except.ok r := h
          obtain rfl := Except.ok.inj h
          intro x hx
          rcases List.mem_append.1 hx with hx | hx
          · rw [(mem_foundGroup.1 hx).2]; exact .inl rfl
          · obtain ⟨e, _, p⟩ := kids_prefix l hk x hx
            rcases p with p | ⟨t, p⟩
            · exact .inr ⟨_, p⟩
            · exact .inr ⟨e.1 ++ '/' :: t, by rw [p]; simp⟩
  | .soft p0 n, pa, pk, soft, path, r, h => by
    rw [findKid] at h
    exact kid_prefix n h
  | .ext n, pa, pk, soft, path, r, h => by
    rw [findKid] at h
    exact kid_prefix n h
theorem kids_prefix {hard : Bool} : ∀ (l : List (Text × Node)) {pa : Attrs} {pk : Kids} {root : Text} {r : List Found}
    (_h : findKids hard pa pk root l = .ok r), ∀ x ∈ r, ∃ e ∈ l, x.path = root ++ '/' :: e.1 ∨ ∃ t, x.path = root ++ '/' :: e.1 ++ '/' :: t
  | [], pa, pk, root, r, h => by
    rw [findKids] at h
    obtain rfl := Except.ok.inj h
    intro x hx; exact absurd hx List.not_mem_nil
  | (k0, n0) :: l, pa, pk, root, r, h => by
    rw [findKids] at h
    cases h1 : findKid hard pa pk none (root ++ '/' :: k0) n0 with
    | error e => rw [h1] at h; cases h
    | ok r1 =>
      cases h2 : findKids hard pa pk root l with
      | error e => rw [h1, h2] at h; cases h
      | ok r2 =>
        rw [h1, h2] at h
        have h : Except.ok (r1 ++ r2) = Except.ok r := h
        obtain rfl := Except.ok.inj h
        intro x hx
        rcases List.mem_append.1 hx with hx | hx
        · exact ⟨_, List.mem_cons_self, kid_prefix n0 h1 x hx⟩
        · obtain ⟨e, he, p⟩ := kids_prefix l h2 x hx
          exact ⟨e, List.mem_cons_of_mem _ he, p⟩
end

/-- Names without slash are read from a path. -/
theorem name_inj {a b s t : Text} (ha : '/' ∉ a) (hb : '/' ∉ b) (hs : s = [] ∨ ∃ u, s = '/' :: u) (ht : t = [] ∨ ∃ u, t = '/' :: u) (h : a ++ s = b ++ t) : a = b := by
  have key : ∀ {a s : Text}, '/' ∉ a → (s = [] ∨ ∃ u, s = '/' :: u) → (a ++ s).takeWhile (· ≠ '/') = a := by
    intro a s ha hs
    rw [List.takeWhile_append_of_pos (by intro c hc; simp; rintro rfl; exact ha hc)]
    rcases hs with rfl | ⟨u, rfl⟩ <;> simp
  rw [← key ha hs, h, key hb ht]

mutual
theorem kid_nodup {hard : Bool} : ∀ (n : Node) {pa : Attrs} {pk : Kids} {soft : Option Text} {path : Text} {r : List Found}
    (_d : Distinct n) (_h : findKid hard pa pk soft path n = .ok r), (r.map (·.path)).Nodup
  | .ds a v, pa, pk, soft, path, r, d, h => by
    rw [findKid] at h
    rcases foundDs_ok h with ⟨hv, t, hg, rfl⟩ | ⟨hv, rfl⟩ <;> simp
  | .grp a l, pa, pk, soft, path, r, d, h => by
    have hg0 : ∀ t, ((foundGroup path a l pa pk t).map (·.path)).Nodup := by
      intro t; unfold foundGroup; split <;> simp
    rw [findKid] at h
    cases hg : getlink soft pa path with
    | error e => rw [hg] at h; cases h
    | ok t =>
      rw [hg] at h
      dsimp only at h
      split at h
      · obtain rfl := Except.ok.inj h
        exact hg0 t
      · cases hk : findKids hard a l path l with
        | error e => rw [hk] at h; cases h
        | ok r' =>
          rw [hk] at h
          have h : Except.ok (foundGroup path a l pa pk t ++ r') = Except.ok r := h
          obtain rfl := Except.ok.inj h
          cases d with
          | grp d1 d2 d3 =>
            rw [List.map_append, List.nodup_append]
            refine ⟨hg0 t, kids_nodup l d1 (fun e he => (d2 e he).1) d3 hk, ?_⟩
            intro x hx y hy
            obtain ⟨f, hf, rfl⟩ := List.mem_map.1 hx
            obtain ⟨g, hg, rfl⟩ := List.mem_map.1 hy
            rw [(mem_foundGroup.1 hf).2]
            obtain ⟨e, _, p⟩ := kids_prefix l hk g hg
            intro hp
            dsimp only at hp
            rcases p with p | ⟨t, p⟩ <;> rw [p] at hp <;> simp at hp
  | .soft p0 n, pa, pk, soft, path, r, d, h => by
    rw [findKid] at h
    cases d with | soft d => exact kid_nodup n d h
  | .ext n, pa, pk, soft, path, r, d, h => by
    rw [findKid] at h
    cases d with | ext d => exact kid_nodup n d h
theorem kids_nodup {hard : Bool} : ∀ (l : List (Text × Node)) {pa : Attrs} {pk : Kids} {root : Text} {r : List Found}
    (_d : (l.map Prod.fst).Nodup) (_s : ∀ e ∈ l, '/' ∉ e.1) (_r : ∀ e ∈ l, Distinct e.2)
    (_h : findKids hard pa pk root l = .ok r), (r.map (·.path)).Nodup
  | [], pa, pk, root, r, d, s, dr, h => by
    rw [findKids] at h
    obtain rfl := Except.ok.inj h
    exact List.nodup_nil
  | (k0, n0) :: l, pa, pk, root, r, d, s, dr, h => by
    rw [findKids] at h
    cases h1 : findKid hard pa pk none (root ++ '/' :: k0) n0 with
    | error e => rw [h1] at h; cases h
    | ok r1 =>
      cases h2 : findKids hard pa pk root l with
      | error e => rw [h1, h2] at h; cases h
      | ok r2 =>
        rw [h1, h2] at h
        have h : Except.ok (r1 ++ r2) = Except.ok r := h
        obtain rfl := Except.ok.inj h
        rw [List.map_cons, List.nodup_cons] at d
        rw [List.map_append, List.nodup_append]
        refine ⟨kid_nodup n0 (dr _ List.mem_cons_self) h1,
          kids_nodup l d.2 (fun e he => s e (List.mem_cons_of_mem _ he)) (fun e he => dr e (List.mem_cons_of_mem _ he)) h2, ?_⟩
        intro x hx y hy
        obtain ⟨f, hf, rfl⟩ := List.mem_map.1 hx
        obtain ⟨g, hg, rfl⟩ := List.mem_map.1 hy
        have p1 := kid_prefix n0 h1 f hf
        obtain ⟨e, he, p2⟩ := kids_prefix l h2 g hg
        intro hp
        apply d.1
        have p1' : ∃ u, f.path = root ++ '/' :: (k0 ++ u) ∧ (u = [] ∨ ∃ v, u = '/' :: v) := by
          rcases p1 with p | ⟨t, p⟩
          · exact ⟨[], by rw [p]; simp, .inl rfl⟩
          · exact ⟨'/' :: t, by rw [p]; simp, .inr ⟨_, rfl⟩⟩
        have p2' : ∃ u, g.path = root ++ '/' :: (e.1 ++ u) ∧ (u = [] ∨ ∃ v, u = '/' :: v) := by
          rcases p2 with p | ⟨t, p⟩
          · exact ⟨[], by rw [p]; simp, .inl rfl⟩
          · exact ⟨'/' :: t, by rw [p]; simp, .inr ⟨_, rfl⟩⟩
        obtain ⟨u, e1, hu⟩ := p1'
        obtain ⟨v, e2, hv⟩ := p2'
        rw [e1, e2] at hp
        have hp := List.append_cancel_left hp
        have hp := (List.cons.inj hp).2
        have : k0 = e.1 := name_inj (s _ List.mem_cons_self) (s _ (List.mem_cons_of_mem _ he)) hu hv hp
        exact List.mem_map.2 ⟨e, he, this.symm⟩
end

end Verif.Props.Nexus
