import Verif.Model.Distributed
import Verif.Spec.Distributed
import Mathlib.Data.List.Nodup
import Mathlib.Data.List.Range
/-! Helper lemmas for chunked loading. -/
namespace Verif.Distributed
open Verif.DistributedSpec

theorem start_zero (c : List Nat) : start c 0 = 0 := by simp [start]

theorem start_succ (c : Nat) (cs : List Nat) (i : Nat) :
    start (c :: cs) (i + 1) = c + start cs i := by simp [start]

theorem start_le {chunk : List Nat} : ∀ {i c : Nat}, chunk[i]? = some c →
    start chunk i + c ≤ chunk.sum := by
  induction chunk with
  | nil => intro i c h; simp at h
  | cons a cs ih =>
    intro i c h
    cases i with
    | zero => simp at h; subst h; rw [start_zero]; simp
    | succ i =>
      rw [List.getElem?_cons_succ] at h
      have := ih h
      rw [start_succ, List.sum_cons]; omega

theorem locate_of_lt {chunk : List Nat} : ∀ {x : Nat}, x < chunk.sum →
    ∃ i l c, locate chunk x = some (i, l) ∧ chunk[i]? = some c ∧ l < c ∧ start chunk i + l = x := by
  induction chunk with
  | nil => intro x h; simp at h
  | cons a cs ih =>
    intro x h
    unfold locate
    by_cases hx : x < a
    · rw [if_pos hx]
      exact ⟨0, x, a, rfl, rfl, hx, by rw [start_zero]; omega⟩
    · rw [if_neg hx]
      rw [List.sum_cons] at h
      obtain ⟨i, l, c, h1, h2, h3, h4⟩ := ih (x := x - a) (by omega)
      refine ⟨i + 1, l, c, by rw [h1]; rfl, by simpa using h2, h3, ?_⟩
      rw [start_succ]; omega

theorem locate_unique {chunk : List Nat} : ∀ {i c x : Nat}, chunk[i]? = some c →
    start chunk i ≤ x → x < start chunk i + c → locate chunk x = some (i, x - start chunk i) := by
  induction chunk with
  | nil => intro i c x h; simp at h
  | cons a cs ih =>
    intro i c x h h1 h2
    unfold locate
    cases i with
    | zero =>
      simp at h; subst h
      rw [start_zero] at h2 ⊢
      rw [if_pos (by omega)]; rfl
    | succ i =>
      rw [List.getElem?_cons_succ] at h
      rw [start_succ] at h1 h2 ⊢
      rw [if_neg (by omega), ih h (x := x - a) (by omega) (by omega)]
      simp only [Option.map_some]
      congr 2; omega

theorem mem_ndindex : ∀ {ns b : List Nat}, b ∈ ndindex ns ↔ InShape ns b
  | [], [] => by simp [ndindex, InShape]
  | [], _ :: _ => by simp [ndindex, InShape]
  | n :: ns, [] => by simp [ndindex, InShape]
  | n :: ns, i :: is => by
    simp only [ndindex, InShape, List.mem_flatMap, List.mem_range, List.mem_map, List.cons.injEq,
      ← mem_ndindex (ns := ns) (b := is)]
    constructor
    · rintro ⟨j, hj, a, ha, rfl, rfl⟩; exact ⟨hj, ha⟩
    · rintro ⟨h1, h2⟩; exact ⟨i, h1, is, h2, rfl, rfl⟩

theorem nodup_ndindex : ∀ ns : List Nat, (ndindex ns).Nodup
  | [] => by simp [ndindex]
  | n :: ns => by
    rw [ndindex, List.nodup_flatMap]
    constructor
    · intro i _
      exact (nodup_ndindex ns).map (fun a b h => by injection h)
    · refine List.Pairwise.imp_of_mem ?_ (List.nodup_range (n := n))
      intro a b _ _ hab x hx hy
      simp only [List.mem_map] at hx hy
      obtain ⟨u, _, rfl⟩ := hx
      obtain ⟨v, _, hv⟩ := hy
      injection hv with h1 _
      exact hab h1.symm

/-- Sizes, bounds of the slices of a chunk. -/
def Fits : List (List Nat) → List Nat → List (Nat × Nat) → Prop
  | [], [], [] => True
  | ch :: chs, i :: is, p :: ps =>
    (p.1 ≤ p.2 ∧ p.2 ≤ ch.sum ∧ ch[i]? = some (p.2 - p.1)) ∧ Fits chs is ps
  | _, _, _ => False

theorem chunkSlices_ok : ∀ {chunks : List (List Nat)} {b : List Nat},
    InShape (chunks.map List.length) b → ∃ s, chunkSlices chunks b = .ok s ∧ Fits chunks b s
  | [], [], _ => ⟨[], rfl, trivial⟩
  | [], _ :: _, h => by simp [InShape] at h
  | _ :: _, [], h => by simp [InShape] at h
  | ch :: chs, i :: is, h => by
    simp only [List.map_cons, InShape] at h
    obtain ⟨s, hs, hf⟩ := chunkSlices_ok h.2
    have hc : ch[i]? = some ch[i] := List.getElem?_eq_getElem h.1
    refine ⟨(start ch i, start ch i + ch[i]) :: s, ?_, ⟨by simp, start_le hc, ?_⟩, hf⟩
    · simp only [chunkSlices, hc, hs]
    · rw [hc]; simp

theorem fits_get : ∀ {chunks : List (List Nat)} {b : List Nat} {s : List (Nat × Nat)},
    Fits chunks b s → s.length = chunks.length ∧
      ∀ (k : Nat) (p : Nat × Nat), s[k]? = some p → ∃ ch i, chunks[k]? = some ch ∧ b[k]? = some i ∧
        p.1 ≤ p.2 ∧ p.2 ≤ ch.sum ∧ ch[i]? = some (p.2 - p.1)
  | [], [], [], _ => ⟨rfl, by simp⟩
  | ch :: chs, i :: is, p :: ps, h => by
    obtain ⟨h1, h2⟩ := h
    obtain ⟨g1, g2⟩ := fits_get h2
    refine ⟨by simp [g1], ?_⟩
    intro k q hq
    cases k with
    | zero => simp at hq; subst hq; exact ⟨ch, i, rfl, rfl, h1⟩
    | succ k => simpa using g2 k q (by simpa using hq)

theorem locateAll_ok : ∀ {chunks : List (List Nat)} {idx : List Nat},
    InShape (chunks.map List.sum) idx → ∃ b loc s, locateAll chunks idx = some (b, loc) ∧
      InShape (chunks.map List.length) b ∧ chunkSlices chunks b = .ok s ∧
      List.zipWith (fun p i => p.1 + i) s loc = idx ∧ InBox s idx ∧
      InShape (s.map fun p => p.2 - p.1) loc ∧ Fits chunks b s
  | [], [], _ => ⟨[], [], [], rfl, trivial, rfl, rfl, trivial, trivial, trivial⟩
  | [], _ :: _, h => by simp [InShape] at h
  | _ :: _, [], h => by simp [InShape] at h
  | ch :: chs, x :: xs, h => by
    simp only [List.map_cons, InShape] at h
    obtain ⟨b, loc, s, h1, h2, h3, h4, h5, h6, h7⟩ := locateAll_ok h.2
    obtain ⟨i, l, c, g1, g2, g3, g4⟩ := locate_of_lt h.1
    have hb : i < ch.length := by
      rw [List.getElem?_eq_some_iff] at g2; exact g2.1
    refine ⟨i :: b, l :: loc, (start ch i, start ch i + c) :: s, ?_, ⟨hb, h2⟩, ?_, ?_, ?_, ?_, ?_⟩
    · simp only [locateAll, g1, h1]
    · simp only [chunkSlices, g2, h3]
    · simp only [List.zipWith_cons_cons, h4, g4]
    · exact ⟨⟨by simp only; omega, by simp only; omega⟩, h5⟩
    · simp only [List.map_cons, InShape]
      exact ⟨by omega, h6⟩
    · refine ⟨⟨by simp, start_le g2, ?_⟩, h7⟩
      rw [g2]; simp

theorem inBox_unique : ∀ {chunks : List (List Nat)} {b s idx : _},
    chunkSlices chunks b = .ok s → InBox s idx → ∃ loc, locateAll chunks idx = some (b, loc)
  | [], [], _, idx, h, hb => by
    simp only [chunkSlices, Except.ok.injEq] at h
    subst h
    cases idx with
    | nil => exact ⟨[], rfl⟩
    | cons => simp [InBox] at hb
  | [], _ :: _, _, _, h, _ => by simp [chunkSlices] at h
  | _ :: _, [], _, _, h, _ => by simp [chunkSlices] at h
  | ch :: chs, i :: is, s, idx, h, hb => by
    unfold chunkSlices at h
    split at h
    · rename_i c rest h1 h2
      simp only [Except.ok.injEq] at h
      subst h
      cases idx with
      | nil => simp [InBox] at hb
      | cons x xs =>
        obtain ⟨⟨k1, k2⟩, k3⟩ := hb
        obtain ⟨loc, hl⟩ := inBox_unique h2 k3
        refine ⟨(x - start ch i) :: loc, ?_⟩
        simp only [locateAll, locate_unique h1 k1 k2, hl]
    · simp at h

theorem sliceMemmap_eq {α : Type} (d : Arr α) (s : List (Nat × Nat)) :
    sliceMemmap d s = sliceArr d s := by
  unfold sliceMemmap; split <;> rfl

theorem sliceArr_shape {α : Type} : ∀ {chunks : List (List Nat)} {b : List Nat}
    {s : List (Nat × Nat)} (d : Arr α), d.shape = chunks.map List.sum → Fits chunks b s →
    (sliceArr d s).shape = s.map fun p => p.2 - p.1 := by
  intro chunks b s d hd hf
  simp only [sliceArr, hd]
  clear hd
  induction chunks generalizing b s with
  | nil => cases b <;> cases s <;> simp_all [Fits]
  | cons ch chs ih =>
    match b, s, hf with
    | i :: is, p :: ps, hf =>
      obtain ⟨⟨h1, h2, _⟩, h3⟩ := hf
      simp only [List.map_cons, List.zipWith_cons_cons, ih h3]
      congr 1
      rw [Nat.min_eq_left h2, Nat.min_eq_left (by omega)]

/-! ### Positions -/

theorem normPos_ok_iff : ∀ {nav : List Nat} {p : List Int} {q : List Nat},
    normPos nav p = .ok q ↔ Denotes nav p q
  | [], [], [] => by simp [normPos, Denotes]
  | [], [], _ :: _ => by simp [normPos, Denotes]
  | [], _ :: _, q => by cases q <;> simp [normPos, Denotes]
  | _ :: _, [], q => by cases q <;> simp [normPos, Denotes]
  | n :: ns, p :: ps, q => by
    have hi : ∀ i : Nat, normIndex n p = .ok i ↔ (i < n ∧ (p = i ∨ p + n = i)) := by
      intro i
      unfold normIndex
      split
      · simp only [Except.ok.injEq]; omega
      · split
        · simp only [Except.ok.injEq]; omega
        · simp; omega
    unfold normPos
    cases h1 : normIndex n p with
    | error e =>
      cases q with
      | nil => simp [Denotes]
      | cons i is =>
        simp only [Denotes, reduceCtorEq, false_iff]
        intro h
        rw [(hi i).2 h.1] at h1; cases h1
    | ok j =>
      cases h2 : normPos ns ps with
      | error e =>
        cases q with
        | nil => simp [Denotes]
        | cons i is =>
          simp only [Denotes, reduceCtorEq, false_iff]
          intro h
          rw [normPos_ok_iff.2 h.2] at h2; cases h2
      | ok js =>
        cases q with
        | nil => simp [Denotes]
        | cons i is =>
          simp only [Denotes, Except.ok.injEq, List.cons.injEq, ← hi, ← normPos_ok_iff, h1, h2]

theorem denotes_unique {nav : List Nat} {p : List Int} {q q' : List Nat}
    (h : Denotes nav p q) (h' : Denotes nav p q') : q = q' := by
  rw [← normPos_ok_iff] at h h'
  rw [h] at h'
  injection h'

theorem posLoop_spec {nav : List Nat} : ∀ (ps : List (List Int)) (i : Nat) (m : List Nat → Nat),
    (∀ p ∈ ps, ∃ q, Denotes nav p q) →
    ∃ m', posLoop nav ps i m = .ok m' ∧
      ∀ x, (∀ k, LastAt nav ps x k → m' x = i + k + 1) ∧ (Never nav ps x → m' x = m x)
  | [], i, m, _ => ⟨m, rfl, fun x => ⟨fun k hk => by
      obtain ⟨⟨p, hp, _⟩, _⟩ := hk; simp at hp, fun _ => rfl⟩⟩
  | p :: ps, i, m, h => by
    obtain ⟨q, hq⟩ := h p (by simp)
    unfold posLoop
    rw [normPos_ok_iff.2 hq]
    obtain ⟨m', h1, h2⟩ := posLoop_spec ps (i + 1) (fun x => if x = q then i + 1 else m x)
      (fun r hr => h r (by simp [hr]))
    refine ⟨m', h1, fun x => ?_⟩
    constructor
    · intro k hk
      cases k with
      | succ k =>
        have : LastAt nav ps x k := by
          refine ⟨?_, ?_⟩
          · obtain ⟨r, hr, hd⟩ := hk.1
            exact ⟨r, by simpa using hr, hd⟩
          · intro j r hj hr
            exact hk.2 (j + 1) r (by omega) (by simpa using hr)
        rw [(h2 x).1 k this]; omega
      | zero =>
        have hn : Never nav ps x := by
          intro j r hr
          exact hk.2 (j + 1) r (by omega) (by simpa using hr)
        rw [(h2 x).2 hn]
        obtain ⟨r, hr, hd⟩ := hk.1
        simp at hr; subst hr
        rw [if_pos (denotes_unique hd hq)]
    · intro hn
      have hn' : Never nav ps x := fun j r hr => hn (j + 1) r (by simpa using hr)
      rw [(h2 x).2 hn', if_neg]
      intro hx
      subst hx
      exact hn 0 p rfl hq

theorem squeeze_id {α : Type} (a : Arr α) (h : ∀ n ∈ a.shape, n ≠ 1) (xs : List Nat)
    (hx : InShape a.shape xs) : (squeeze a).shape = a.shape ∧ (squeeze a).val xs = a.val xs := by
  constructor
  · simp only [squeeze]
    rw [List.filter_eq_self]
    intro n hn
    simpa using h n hn
  · simp only [squeeze]
    congr 1
    generalize a.shape = sh at h hx
    induction sh generalizing xs with
    | nil => cases xs <;> simp_all [InShape, unsqueeze]
    | cons n ns ih =>
      cases xs with
      | nil => simp [InShape] at hx
      | cons x xs =>
        simp only [unsqueeze]
        rw [if_neg (h n (by simp)), ih xs (fun m hm => h m (by simp [hm])) hx.2]

end Verif.Distributed
