import Verif.Spec.Pantarhei
import Mathlib.Tactic.Ring
import Mathlib.Tactic.Push
/-! Lemmas about the axes of Panta Rhei files. -/
namespace Verif.Pantarhei
open Verif

theorem insertBy_perm (key : Nat → Nat) (x : Nat) : ∀ l, (insertBy key x l).Perm (x :: l)
  | [] => List.Perm.refl _
  | y :: l => by
    rw [insertBy]
    split
    · exact List.Perm.refl _
    · exact ((insertBy_perm key x l).cons y).trans (List.Perm.swap ..)

theorem sortBy_perm (key : Nat → Nat) : ∀ l, (sortBy key l).Perm l
  | [] => List.Perm.refl _
  | x :: l => by
    rw [sortBy]
    exact (insertBy_perm key x _).trans ((sortBy_perm key l).cons x)

theorem insertBy_sorted (key : Nat → Nat) (x : Nat) :
    ∀ {l : List Nat}, l.Pairwise (fun a b => key a ≤ key b) → (insertBy key x l).Pairwise (fun a b => key a ≤ key b)
  | [], _ => by simp [insertBy]
  | y :: l, h => by
    rw [List.pairwise_cons] at h
    rw [insertBy]
    split
    · rename_i hxy
      rw [List.pairwise_cons]
      refine ⟨?_, List.pairwise_cons.2 h⟩
      intro z hz
      rcases List.mem_cons.1 hz with rfl | hz
      · exact hxy
      · exact Nat.le_trans hxy (h.1 z hz)
    · rename_i hxy
      rw [List.pairwise_cons]
      refine ⟨?_, insertBy_sorted key x h.2⟩
      intro z hz
      rcases List.mem_cons.1 ((insertBy_perm key x l).mem_iff.1 hz) with rfl | hz
      · omega
      · exact h.1 z hz

theorem sortBy_sorted (key : Nat → Nat) : ∀ l, (sortBy key l).Pairwise (fun a b => key a ≤ key b)
  | [] => List.Pairwise.nil
  | x :: l => by
    rw [sortBy]
    exact insertBy_sorted key x (sortBy_sorted key l)

theorem sortBy_id (key : Nat → Nat) : ∀ {l : List Nat}, l.Pairwise (fun a b => key a ≤ key b) → sortBy key l = l
  | [], _ => rfl
  | x :: l, h => by
    rw [List.pairwise_cons] at h
    rw [sortBy, sortBy_id key h.2]
    cases l with
    | nil => rfl
    | cons y l => rw [insertBy, if_pos (h.1 y (List.mem_cons_self ..))]

theorem trivialDims_ok : ∀ {i : Nat} {ns : List Nat} {cs : List (Option Text)} {ts : List Nat},
    trivialDims i ns cs = .ok ts → ∀ k ∈ ts, i ≤ k ∧ ns[k - i]? = some 1
  | i, n :: ns, c :: cs, ts, h, k, hk => by
    rw [trivialDims] at h
    split at h
    · cases h
    · rename_i b hb
      split at h
      · cases h
      · rename_i is his
        cases h
        have hrec : ∀ k ∈ is, i ≤ k ∧ (n :: ns)[k - i]? = some 1 := by
          intro k hk
          obtain ⟨h1, h2⟩ := trivialDims_ok his k hk
          refine ⟨by omega, ?_⟩
          rw [show k - i = (k - (i + 1)) + 1 by omega, List.getElem?_cons_succ]
          exact h2
        split at hk
        · rename_i hbt
          rcases List.mem_cons.1 hk with rfl | hk
          · refine ⟨Nat.le_refl _, ?_⟩
            rw [Nat.sub_self, List.getElem?_cons_zero]
            unfold isTrivial at hb
            split at hb
            · rename_i hn; rw [hn]
            · cases hb; cases hbt
          · exact hrec k hk
        · exact hrec k hk
  | _, [], _, _, h, k, hk => by
    simp [trivialDims] at h
    subst h
    cases hk
  | _, _ :: _, [], _, h, k, hk => by
    simp [trivialDims] at h
    subst h
    cases hk

theorem hasIndex_iff : ∀ t : Text, hasIndex t = true ↔ tIndex <:+: t
  | [] => by
    constructor
    · intro h; cases h
    · intro h
      have := h.length_le
      exact absurd this (by decide)
  | c :: t => by
    rw [hasIndex, Bool.or_eq_true, hasIndex_iff t, List.infix_cons_iff, List.isPrefixOf_iff_prefix]

theorem isTrivial_iff {n : Nat} {c : Option Text} {b : Bool} (h : isTrivial n c = .ok b) :
    b = true ↔ n = 1 ∧ ∃ t, c = some t ∧ tIndex <:+: t := by
  unfold isTrivial at h
  split at h
  · rename_i hn
    split at h
    · cases h
    · rename_i t
      cases h
      rw [hasIndex_iff]
      constructor
      · intro h; exact ⟨hn, t, rfl, h⟩
      · rintro ⟨-, t', e, h⟩; cases e; exact h
  · rename_i hn
    cases h
    constructor
    · intro h; cases h
    · intro h; exact absurd h.1 hn

theorem trivialDims_iff : ∀ {i : Nat} {ns : List Nat} {cs : List (Option Text)} {ts : List Nat},
    cs.length = ns.length → trivialDims i ns cs = .ok ts → ∀ k, k ∈ ts ↔
      i ≤ k ∧ ns[k - i]? = some 1 ∧ ∃ t, cs[k - i]? = some (some t) ∧ tIndex <:+: t
  | i, n :: ns, c :: cs, ts, hl, h, k => by
    rw [trivialDims] at h
    split at h
    · cases h
    · rename_i b hb
      split at h
      · cases h
      · rename_i is his
        cases h
        have ih := trivialDims_iff (by simpa using hl) his
        have hb' := isTrivial_iff hb
        have hmem : (k ∈ if b = true then i :: is else is) ↔ (b = true ∧ k = i) ∨ k ∈ is := by
          cases b <;> simp
        rw [hmem, hb', ih k]
        by_cases hk : k = i
        · subst hk
          simp only [Nat.sub_self, List.getElem?_cons_zero, Option.some.injEq, le_refl, true_and]
          constructor
          · rintro (h | ⟨h, -⟩)
            · exact h.1
            · omega
          · intro h
            exact Or.inl ⟨h, trivial⟩
        · by_cases hlt : i ≤ k
          · rw [show k - i = (k - (i + 1)) + 1 by omega, List.getElem?_cons_succ, List.getElem?_cons_succ]
            constructor
            · rintro (⟨-, h⟩ | ⟨-, h⟩)
              · exact absurd h hk
              · exact ⟨hlt, h⟩
            · rintro ⟨-, h⟩
              exact Or.inr ⟨by omega, h⟩
          · constructor
            · rintro (⟨-, h⟩ | ⟨h, -⟩)
              · exact absurd h hk
              · omega
            · rintro ⟨h, -⟩
              exact absurd h hlt
  | _, [], _, _, _, h, k => by
    simp [trivialDims] at h
    subst h
    simp
  | _, _ :: _, [], _, hl, h, k => by simp at hl

theorem kept_nodup (n : Nat) (triv : List Nat) : (kept n triv).Nodup := List.Pairwise.filter _ List.nodup_range

theorem mem_kept {n k : Nat} {triv : List Nat} : k ∈ kept n triv ↔ k < n ∧ k ∉ triv := by
  unfold kept
  rw [List.mem_filter, List.mem_range, decide_eq_true_iff]

theorem labels_ok : ∀ {ds : List Text} {cs : List (Option Text)} {ls : List Text}, labels ds cs = .ok ls →
    ls.length = cs.length ∧ ∀ (i : Nat) (t : Text), cs[i]? = some (some t) → ls[i]? = some t
  | ds, [], ls, h => by
    rw [labels] at h
    cases h
    exact ⟨rfl, by intro i t h; cases h⟩
  | ds, some t :: cs, ls, h => by
    rw [labels] at h
    split at h
    · cases h
    · rename_i ls' hls
      cases h
      obtain ⟨h1, h2⟩ := labels_ok hls
      refine ⟨by simp [h1], ?_⟩
      intro i t' hi
      cases i with
      | zero =>
        rw [List.getElem?_cons_zero] at hi ⊢
        cases hi
        rfl
      | succ i =>
        rw [List.getElem?_cons_succ] at hi ⊢
        exact h2 i t' hi
  | d :: ds, none :: cs, ls, h => by
    rw [labels] at h
    split at h
    · cases h
    · rename_i ls' hls
      cases h
      obtain ⟨h1, h2⟩ := labels_ok hls
      refine ⟨by simp [h1], ?_⟩
      intro i t' hi
      cases i with
      | zero => cases hi
      | succ i =>
        rw [List.getElem?_cons_succ] at hi ⊢
        exact h2 i t' hi
  | [], none :: cs, ls, h => by
    rw [labels] at h
    cases h

theorem axes_ok {fl : List Nat} : ∀ {i : Nat} {ls : List Text} {ns : List Nat} {cs : List (Option Calib)} {xs : List Axis},
    axes fl i ls ns cs = .ok xs → ls.length = ns.length → ns.length = cs.length →
    xs.length = ls.length ∧ ∀ (j : Nat) (a : Axis), xs[j]? = some a →
      ∃ l n c, ls[j]? = some l ∧ ns[j]? = some n ∧ cs[j]? = some c ∧ axis l n c (decide (i + j ∈ fl)) = .ok a
  | i, l :: ls, n :: ns, c :: cs, xs, h, h1, h2 => by
    rw [axes] at h
    split at h
    · cases h
    · rename_i a ha
      split at h
      · cases h
      · rename_i xs' hxs
        cases h
        obtain ⟨h3, h4⟩ := axes_ok hxs (by simpa using h1) (by simpa using h2)
        refine ⟨by simp [h3], ?_⟩
        intro j a' hj
        cases j with
        | zero =>
          cases hj
          exact ⟨l, n, c, rfl, rfl, rfl, ha⟩
        | succ j =>
          rw [List.getElem?_cons_succ] at hj
          obtain ⟨l', n', c', k1, k2, k3, k4⟩ := h4 j a' hj
          exact ⟨l', n', c', k1, k2, k3, by rwa [show i + (j + 1) = i + 1 + j by omega]⟩
  | i, [], ns, cs, xs, h, h1, h2 => by
    simp [axes] at h
    subst h
    exact ⟨rfl, by intro j a hj; cases hj⟩
  | i, _ :: _, [], cs, xs, h, h1, h2 => by cases h1
  | i, _ :: _, _ :: _, [], xs, h, h1, h2 => by cases h2

theorem getElem?_idxOf {l : List Nat} {i k : Nat} (hn : l.Nodup) (h : l[i]? = some k) : l.idxOf k = i := by
  obtain ⟨hi, rfl⟩ := List.getElem?_eq_some_iff.1 h
  exact hn.idxOf_getElem i hi

/-! ### The whole import -/

theorem map_getD {β : Type} {l : List Nat} {f : Nat → β} {i : Nat} {d : β} (h : i < l.length) :
    (l.map f)[i]?.getD d = f l[i] := by
  rw [List.getElem?_map, List.getElem?_eq_getElem h]
  rfl

/-- What the successful import of a file consists of. -/
theorem importPr_ok {α : Type} {data out : Arr α} {m m' : Meta} {xs : List Axis}
    (h : importPr data m = .ok (out, xs, m')) :
    ∃ ct triv order ls, contentTypes m data.shape.length = .ok ct ∧ ct.length = data.shape.length ∧
      trivialDims 0 data.shape ct.reverse = .ok triv ∧
      order = sortBy (fun i => rank (((kept data.shape.length triv).map fun k => ct.reverse[k]?.getD none)[i]?.getD none))
        (List.range (kept data.shape.length triv).length) ∧
      labels (defaultLabels ((kept data.shape.length triv).map fun k => ct.reverse[k]?.getD none))
        (order.map fun i => ((kept data.shape.length triv).map fun k => ct.reverse[k]?.getD none)[i]?.getD none) =
        .ok ls ∧
      out = flip (flipAxes m.eels ls) (moveAxes order (squeeze triv data)) ∧
      axes (flipAxes m.eels ls) 0 ls out.shape (order.map fun i =>
        ((kept data.shape.length triv).map fun k =>
          (calibrations m data.shape.length).reverse[k]?.getD none)[i]?.getD none) = .ok xs := by
  unfold importPr at h
  dsimp only [Arr.ndim] at h
  split at h
  · cases h
  · rename_i ct hct
    split at h
    · cases h
    · rename_i hlen
      split at h
      · cases h
      · rename_i triv htriv
        split at h
        · cases h
        · rename_i ls hls
          split at h
          · split at h
            · cases h
            · rename_i xs' hxs
              cases h
              refine ⟨ct, triv, _, ls, hct, by simpa using hlen, htriv, rfl, ?_, ?_, ?_⟩
              · simpa only [List.length_map] using hls
              · simp only [List.length_map]
              · simpa only [List.length_map] using hxs
          · cases h

theorem axis_calibrated {l : Text} {n : Nat} {c : Option Calib} {b : Bool} {a : Axis} (h : axis l n c b = .ok a) :
    a.name = l ∧ a.size = n ∧ a.navigate = navigationDims.contains l ∧ Calibrated a c (b = true) := by
  unfold axis at h
  dsimp only at h
  split at h
  · cases h
    exact ⟨rfl, rfl, rfl, Or.inl ⟨Or.inl rfl, rfl, rfl, rfl⟩⟩
  · rename_i c'
    split at h
    · rename_i he
      cases h
      refine ⟨rfl, rfl, rfl, Or.inl ⟨Or.inr ?_, rfl, rfl, rfl⟩⟩
      obtain ⟨v, o, u, p⟩ := c'
      cases v <;> cases o <;> cases u <;> cases p <;> simp_all [Calib.isEmpty]
    · split at h
      · rename_i o v ho hv
        cases h
        refine ⟨rfl, rfl, rfl, Or.inr ⟨c', o, v, _, _, rfl, ho, hv, rfl, rfl, rfl, ?_, ?_⟩⟩
        · intro hb i _
          rw [if_neg hb]
          unfold coordinate
          cases c'.pixelFactor with
          | none => simp
          | some p => rfl
        · intro hb i hi
          rw [if_pos hb]
          unfold coordinate
          dsimp only at hi
          have hcast : ((n - 1 - i : Nat) : Rat) = (n : Rat) - 1 - i := by
            rw [Nat.cast_sub (by omega), Nat.cast_sub (by omega)]
            simp
          dsimp only
          rw [hcast]
          cases c'.pixelFactor with
          | none => simp only [Option.getD_none]; ring
          | some p => simp only [Option.getD_some]; ring
      · cases h

theorem reverse_getD {β : Type} {l : List β} {k : Nat} {d : β} (h : k < l.length) :
    l.reverse[k]?.getD d = l[l.length - 1 - k]?.getD d := by
  rw [List.getElem?_reverse h]

/-- The dimensions of the result. -/
theorem import_dims {α : Type} {data out : Arr α} {m m' : Meta} {xs : List Axis} {ct : List (Option Text)}
    (hct : contentTypes m data.shape.length = .ok ct) (h : importPr data m = .ok (out, xs, m')) :
    ∃ π : List Nat, π.Nodup ∧ (∀ k ∈ π, k < data.shape.length) ∧
      (∀ k, k < data.shape.length → (k ∉ π ↔ data.shape[k]? = some 1 ∧
        ∃ t, ct[data.shape.length - 1 - k]? = some (some t) ∧ tIndex <:+: t)) ∧
      xs.length = π.length ∧ out.shape = xs.map Axis.size ∧
      (∀ (i k : Nat) (a : Axis), π[i]? = some k → xs[i]? = some a → data.shape[k]? = some a.size ∧
        (∀ t, ct[data.shape.length - 1 - k]? = some (some t) → a.name = t) ∧
        a.navigate = navigationDims.contains a.name ∧
        Calibrated a (match m.deviceCalib with | none => none | some l => l[data.shape.length - 1 - k]?.getD none)
          (m.eels = true ∧ a.name = tEnergy)) ∧
      (∀ idx J : List Nat, idx.length = π.length → J.length = data.shape.length →
        (∀ (i k v : Nat) (a : Axis), π[i]? = some k → xs[i]? = some a → idx[i]? = some v →
          J[k]? = some (if m.eels = true ∧ a.name = tEnergy then a.size - 1 - v else v)) →
        (∀ k, k < data.shape.length → k ∉ π → J[k]? = some 0) → out.val idx = data.val J) ∧
      π.Pairwise (fun k l => rank (ct[data.shape.length - 1 - k]?.getD none) ≤
        rank (ct[data.shape.length - 1 - l]?.getD none)) := by
  obtain ⟨ct', triv, order, ls, e1, hlen, htriv, hord, hls, hout, hxs⟩ := importPr_ok h
  rw [e1] at hct
  cases hct
  obtain ⟨l1, l2⟩ := labels_ok hls
  rw [List.length_map] at l1
  have htr : ∀ k ∈ triv, data.shape[k]? = some 1 := fun k hk => by
    have := (trivialDims_ok htriv k hk).2
    rwa [Nat.sub_zero] at this
  generalize hks : kept data.shape.length triv = ks at *
  have hkn : ks.Nodup := by rw [← hks]; exact kept_nodup _ _
  have hkm : ∀ k, k ∈ ks ↔ k < data.shape.length ∧ k ∉ triv := by intro k; rw [← hks]; exact mem_kept
  have hperm : order.Perm (List.range ks.length) := by rw [hord]; exact sortBy_perm _ _
  have hon : order.Nodup := hperm.nodup_iff.2 List.nodup_range
  have hom : ∀ i, i ∈ order ↔ i < ks.length := by intro i; rw [hperm.mem_iff, List.mem_range]
  have hol : order.length = ks.length := by rw [hperm.length_eq, List.length_range]
  have hidx : ∀ {p : Nat} (hp : p < ks.length), ks.idxOf ks[p] = p := fun hp => hkn.idxOf_getElem _ hp
  -- the dimensions
  let π := order.map fun p => ks[p]?.getD 0
  have hπ : ∀ i k : Nat, π[i]? = some k ↔ ∃ p, order[i]? = some p ∧ ks[p]? = some k := by
    intro i k
    show (order.map fun p => ks[p]?.getD 0)[i]? = some k ↔ _
    rw [List.getElem?_map]
    constructor
    · intro hk
      cases ho : order[i]? with
      | none => rw [ho] at hk; cases hk
      | some p =>
        rw [ho] at hk
        have hp : p < ks.length := (hom p).1 (List.mem_of_getElem? ho)
        rw [Option.map_some, List.getElem?_eq_getElem hp] at hk
        exact ⟨p, rfl, by rw [List.getElem?_eq_getElem hp]; exact hk⟩
    · rintro ⟨p, h1, h2⟩
      rw [h1, Option.map_some, h2]
      rfl
  have hπm : ∀ k, k ∈ π ↔ k ∈ ks := by
    intro k
    constructor
    · intro hk
      obtain ⟨i, hi⟩ := List.mem_iff_getElem?.1 hk
      obtain ⟨p, -, hp⟩ := (hπ i k).1 hi
      exact List.mem_of_getElem? hp
    · intro hk
      obtain ⟨p, hp⟩ := List.mem_iff_getElem?.1 hk
      have hpl : p < ks.length := (List.getElem?_eq_some_iff.1 hp).1
      obtain ⟨i, hi⟩ := List.mem_iff_getElem?.1 ((hom p).2 hpl)
      exact List.mem_of_getElem? ((hπ i k).2 ⟨p, hi, hp⟩)
  have hπl : π.length = ks.length := by
    show (order.map _).length = _
    rw [List.length_map, hol]
  have hshape : out.shape = π.map fun k => data.shape[k]?.getD 0 := by
    rw [hout]
    show (order.map fun k => ((kept data.shape.length triv).map fun k => data.shape[k]?.getD 0)[k]?.getD 0) =
      (order.map fun p => ks[p]?.getD 0).map _
    rw [hks, List.map_map]
    refine List.map_congr_left ?_
    intro p hp
    have hp' : p < ks.length := (hom p).1 hp
    rw [map_getD hp']
    show _ = data.shape[ks[p]?.getD 0]?.getD 0
    rw [List.getElem?_eq_getElem hp', Option.getD_some]
  have hshl : out.shape.length = ks.length := by rw [hshape, List.length_map, hπl]
  obtain ⟨x1, x2⟩ := axes_ok hxs (by rw [l1, hshl, hol]) (by rw [hshl, List.length_map, hol])
  have hax : ∀ (i k : Nat) (a : Axis), π[i]? = some k → xs[i]? = some a → ls[i]? = some a.name ∧
      data.shape[k]? = some a.size ∧ out.shape[i]? = some a.size ∧
      (∀ t, ct[data.shape.length - 1 - k]? = some (some t) → a.name = t) ∧
        a.navigate = navigationDims.contains a.name ∧
        Calibrated a (match m.deviceCalib with | none => none | some l => l[data.shape.length - 1 - k]?.getD none)
          (m.eels = true ∧ a.name = tEnergy) := by
    intro i k a hk ha
    obtain ⟨l, n, c, a1, a2, a3, a4⟩ := x2 i a ha
    obtain ⟨b1, b2, b3, b4⟩ := axis_calibrated a4
    obtain ⟨p, p1, p2⟩ := (hπ i k).1 hk
    have hpl : p < ks.length := (List.getElem?_eq_some_iff.1 p2).1
    have hkl : k < data.shape.length := ((hkm k).1 (List.mem_of_getElem? p2)).1
    have hsz : data.shape[k]? = some n := by
      rw [hshape, List.getElem?_map, hk, Option.map_some] at a2
      rw [List.getElem?_eq_getElem hkl] at a2 ⊢
      exact a2
    refine ⟨by rw [b1]; exact a1, by rw [b2]; exact hsz, by rw [b2]; exact a2, ?_, by rw [b1]; exact b3, ?_⟩
    · intro t ht
      have : ls[i]? = some t := by
        refine l2 i t ?_
        rw [List.getElem?_map, p1, Option.map_some, map_getD hpl, reverse_getD (by
          rw [hlen]
          rw [List.getElem?_eq_getElem hpl] at p2
          cases p2
          exact hkl), hlen]
        rw [List.getElem?_eq_getElem hpl] at p2
        cases p2
        rw [ht]
        rfl
      rw [a1] at this
      cases this
      exact b1
    · have hc : c = (match m.deviceCalib with | none => none | some l => l[data.shape.length - 1 - k]?.getD none) := by
        rw [List.getElem?_map, p1, Option.map_some, map_getD hpl] at a3
        rw [List.getElem?_eq_getElem hpl] at p2
        have a3' := Option.some.inj a3
        have p2' := Option.some.inj p2
        rw [p2', reverse_getD (by unfold calibrations; rw [List.length_map, List.length_range]; exact hkl)] at a3'
        rw [← a3']
        unfold calibrations
        rw [List.length_map, List.length_range, List.getElem?_map, List.getElem?_range (by omega)]
        rfl
      rw [← hc]
      have hfl : (decide (0 + i ∈ flipAxes m.eels ls) = true) ↔ (m.eels = true ∧ a.name = tEnergy) := by
        rw [decide_eq_true_iff, Nat.zero_add]
        unfold flipAxes
        split
        · rename_i he
          rw [List.mem_filter, List.mem_range, decide_eq_true_iff, a1, b1]
          have : i < ls.length := (List.getElem?_eq_some_iff.1 a1).1
          simp [he, this]
        · rename_i he
          simp [he]
      have heq := propext hfl
      rw [heq] at b4
      exact b4
  refine ⟨π, ?_, ?_, ?_, ?_, ?_, ?_, ?_, ?_⟩
  · show (order.map fun p => ks[p]?.getD 0).Nodup
    unfold List.Nodup
    rw [List.pairwise_map]
    refine List.Pairwise.imp_of_mem ?_ hon
    intro p q hp hq hne e
    apply hne
    have hp' := (hom p).1 hp
    have hq' := (hom q).1 hq
    rw [List.getElem?_eq_getElem hp', List.getElem?_eq_getElem hq', Option.getD_some, Option.getD_some] at e
    rw [← hidx hp', e, hidx hq']
  · intro k hk
    exact ((hkm k).1 ((hπm k).1 hk)).1
  · intro k hk
    have hiff := trivialDims_iff (by rw [List.length_reverse, hlen]) htriv k
    rw [Nat.sub_zero, List.getElem?_reverse (by rw [hlen]; exact hk), hlen] at hiff
    rw [hπm k, hkm k]
    constructor
    · intro h
      exact (hiff.1 (by by_contra ht; exact h ⟨hk, ht⟩)).2
    · intro h hc
      exact hc.2 (hiff.2 ⟨Nat.zero_le _, h⟩)
  · rw [x1, l1, hol, hπl]
  · refine List.ext_getElem? ?_
    intro i
    rw [List.getElem?_map]
    by_cases hi : i < ks.length
    · have hix : i < xs.length := by rw [x1, l1, hol]; exact hi
      have hip : i < π.length := by rw [hπl]; exact hi
      obtain ⟨-, -, h3, -⟩ := hax i π[i] xs[i] (List.getElem?_eq_getElem hip) (List.getElem?_eq_getElem hix)
      rw [h3, List.getElem?_eq_getElem hix]
      rfl
    · rw [List.getElem?_eq_none_iff.2 (by omega), List.getElem?_eq_none_iff.2 (by rw [x1, l1, hol]; omega)]
      rfl
  · intro i k a hk ha
    obtain ⟨-, h2, -, h3⟩ := hax i k a hk ha
    exact ⟨h2, h3⟩
  · intro idx J hi hJ hJ1 hJ0
    rw [hout]
    show data.val _ = data.val J
    congr 1
    refine List.ext_getElem? ?_
    intro k
    rw [hks]
    rw [List.getElem?_map]
    by_cases hk : k < data.shape.length
    · rw [List.getElem?_range hk, Option.map_some]
      by_cases ht : k ∈ triv
      · rw [if_pos ht, hJ0 k hk (by rw [hπm, hkm]; tauto)]
      · rw [if_neg ht]
        obtain ⟨p, hp⟩ := List.mem_iff_getElem?.1 ((hkm k).2 ⟨hk, ht⟩)
        have hpl : p < ks.length := (List.getElem?_eq_some_iff.1 hp).1
        obtain ⟨i, ho⟩ := List.mem_iff_getElem?.1 ((hom p).2 hpl)
        have hil : i < ks.length := by rw [← hol]; exact (List.getElem?_eq_some_iff.1 ho).1
        have hix : i < xs.length := by rw [x1, l1, hol]; exact hil
        have hiv : i < idx.length := by rw [hi, hπl]; exact hil
        have hπi := (hπ i k).2 ⟨p, ho, hp⟩
        rw [hJ1 i k idx[i] xs[i] hπi (List.getElem?_eq_getElem hix) (List.getElem?_eq_getElem hiv)]
        obtain ⟨k1, -, k3, -⟩ := hax i k xs[i] hπi (List.getElem?_eq_getElem hix)
        rw [getElem?_idxOf hkn hp, List.getElem?_map, List.getElem?_range (by rw [hol]; exact hpl), Option.map_some,
          Option.getD_some, getElem?_idxOf hon ho, List.getElem?_mapIdx, List.getElem?_eq_getElem hiv, Option.map_some,
          Option.getD_some]
        have hsh : (moveAxes order (squeeze triv data)).shape[i]?.getD 0 = xs[i].size := by
          rw [show (moveAxes order (squeeze triv data)).shape = out.shape by rw [hout]; rfl, k3]
          rfl
        rw [hsh]
        congr 1
        have hfl : (i ∈ flipAxes m.eels ls) ↔ (m.eels = true ∧ xs[i].name = tEnergy) := by
          unfold flipAxes
          split
          · rename_i he
            rw [List.mem_filter, List.mem_range, decide_eq_true_iff, k1]
            have : i < ls.length := (List.getElem?_eq_some_iff.1 k1).1
            simp [he, this]
          · rename_i he
            simp [he]
        by_cases hf : i ∈ flipAxes m.eels ls
        · rw [if_pos hf, if_pos (hfl.1 hf)]
        · rw [if_neg hf, if_neg (fun h => hf (hfl.2 h))]
    · rw [List.getElem?_eq_none_iff.2 (by simpa using hk), List.getElem?_eq_none_iff.2 (by omega)]
      rfl
  · show (order.map fun p => ks[p]?.getD 0).Pairwise _
    rw [List.pairwise_map]
    have hs := sortBy_sorted (fun i => rank ((ks.map fun k => ct.reverse[k]?.getD none)[i]?.getD none))
      (List.range ks.length)
    rw [← hord] at hs
    refine List.Pairwise.imp_of_mem ?_ hs
    intro p q hp hq hpq
    have hp' := (hom p).1 hp
    have hq' := (hom q).1 hq
    rw [map_getD hp', map_getD hq', reverse_getD (by rw [hlen]; exact ((hkm _).1 (List.getElem_mem hp')).1),
      reverse_getD (by rw [hlen]; exact ((hkm _).1 (List.getElem_mem hq')).1), hlen] at hpq
    rw [List.getElem?_eq_getElem hp', List.getElem?_eq_getElem hq', Option.getD_some, Option.getD_some]
    exact hpq

/-! ### Data returned as stored -/

theorem trivialDims_none : ∀ {i : Nat} {ns : List Nat} {cs : List (Option Text)}, (∀ n ∈ ns, n ≠ 1) →
    trivialDims i ns cs = .ok []
  | i, n :: ns, c :: cs, h => by
    rw [trivialDims]
    have : isTrivial n c = .ok false := by
      unfold isTrivial
      rw [if_neg (h n (List.mem_cons_self ..))]
    rw [this, trivialDims_none fun k hk => h k (List.mem_cons_of_mem _ hk)]
    rfl
  | _, [], _, _ => by rw [trivialDims]
  | _, _ :: _, [], _ => by rw [trivialDims]

theorem labels_exists : ∀ {ds : List Text} {cs : List (Option Text)}, cs.count none ≤ ds.length →
    ∃ ls, labels ds cs = .ok ls
  | ds, [], _ => ⟨[], by rw [labels]⟩
  | ds, some t :: cs, h => by
    rw [List.count_cons_of_ne (by simp)] at h
    obtain ⟨ls, hl⟩ := labels_exists h
    exact ⟨t :: ls, by rw [labels, hl]⟩
  | d :: ds, none :: cs, h => by
    rw [List.count_cons_self, List.length_cons] at h
    obtain ⟨ls, hl⟩ := labels_exists (ds := ds) (cs := cs) (by omega)
    exact ⟨d :: ls, by rw [labels, hl]⟩
  | [], none :: cs, h => by
    rw [List.count_cons_self, List.length_nil] at h
    omega

theorem axes_none {fl : List Nat} : ∀ {i : Nat} {ls : List Text} {ns : List Nat} {cs : List (Option Calib)},
    (∀ c ∈ cs, c = none) → ∃ xs, axes fl i ls ns cs = .ok xs ∧
      ∀ a ∈ xs, a.units = none ∧ a.offset = none ∧ a.scale = none
  | i, l :: ls, n :: ns, c :: cs, h => by
    obtain ⟨xs, h1, h2⟩ := axes_none (fl := fl) (i := i + 1) (ls := ls) (ns := ns)
      fun k hk => h k (List.mem_cons_of_mem _ hk)
    obtain rfl := h c (List.mem_cons_self ..)
    refine ⟨⟨navigationDims.contains l, l, n, none, none, none⟩ :: xs, ?_, ?_⟩
    · rw [axes, h1]
      rfl
    · intro a ha
      rcases List.mem_cons.1 ha with rfl | ha
      · exact ⟨rfl, rfl, rfl⟩
      · exact h2 a ha
  | i, [], _, _, _ => ⟨[], by rw [axes], by simp⟩
  | i, _ :: _, [], _, _ => ⟨[], by rw [axes], by simp⟩
  | i, _ :: _, _ :: _, [], _ => ⟨[], by rw [axes], by simp⟩

theorem mapM_ok {β : Type} {item : List β} : ∀ {order : List Nat}, (∀ k ∈ order, k < item.length) →
    ∃ l, order.mapM (look item) = .ok l
  | [], _ => ⟨[], rfl⟩
  | k :: order, h => by
    obtain ⟨l, hl⟩ := mapM_ok (item := item) (order := order) fun j hj => h j (List.mem_cons_of_mem _ hj)
    have hk := h k (List.mem_cons_self ..)
    refine ⟨item[k] :: l, ?_⟩
    rw [List.mapM_cons, show look item k = .ok item[k] by unfold look; rw [List.getElem?_eq_getElem hk], hl]
    rfl

theorem reorder?_ok {β : Type} {n : Nat} {o : Option (List β)} (h : ∀ l, o = some l → l.length = n) :
    ∃ o', reorder? n (List.range n) o = .ok o' := by
  cases o with
  | none => exact ⟨none, rfl⟩
  | some l =>
    have hl := h l rfl
    obtain ⟨l', hl'⟩ := mapM_ok (item := l.reverse) (order := List.range n) (by
      intro k hk
      rw [List.mem_range] at hk
      rwa [List.length_reverse, hl])
    refine ⟨some l', ?_⟩
    unfold reorder? reorder
    dsimp only
    rw [if_neg (by omega), hl']

theorem kept_all (n : Nat) : kept n [] = List.range n := by
  unfold kept
  rw [List.filter_eq_self]
  intro k _
  simp

theorem range_map_getD {β : Type} {l : List β} {n : Nat} {d : β} (h : l.length = n) :
    (List.range n).map (fun k => l[k]?.getD d) = l := by
  refine List.ext_getElem? ?_
  intro k
  rw [List.getElem?_map]
  by_cases hk : k < n
  · rw [List.getElem?_range hk, Option.map_some, List.getElem?_eq_getElem (by omega)]
    rfl
  · rw [List.getElem?_eq_none_iff.2 (by simpa using hk), List.getElem?_eq_none_iff.2 (by omega)]
    rfl

theorem idxOf_range {n k : Nat} (h : k < n) : (List.range n).idxOf k = k :=
  getElem?_idxOf List.nodup_range (List.getElem?_range h)

/-- Without calibrations, without dimensions of length one and with the dimensions in order, data is returned
as stored. -/
theorem importPr_sorted {α : Type} {data : Arr α} {m : Meta} {ct : List (Option Text)}
    (hct : contentTypes m data.shape.length = .ok ct) (hlen : ct.length = data.shape.length)
    (h1 : ∀ n ∈ data.shape, n ≠ 1) (hs : ct.reverse.Pairwise fun a b => rank a ≤ rank b)
    (hn : ct.count none ≤ 3) (hd : m.deviceCalib = none) (he : m.eels = true → some tEnergy ∉ ct)
    (l1 : ∀ l, m.contentTypes = some l → l.length = data.shape.length)
    (l2 : ∀ l, m.userCalib = some l → l.length = data.shape.length)
    (l3 : ∀ l, m.inheritedCalib = some l → l.length = data.shape.length)
    (l4 : ∀ l, m.size = some l → l.length = data.shape.length)
    (l5 : ∀ l, m.refSize = some l → l.length = data.shape.length) :
    ∃ out xs m', importPr data m = .ok (out, xs, m') ∧ out.shape = data.shape ∧
      (∀ idx, idx.length = data.shape.length → out.val idx = data.val idx) ∧ xs.map Axis.size = data.shape ∧
      ∀ a ∈ xs, a.units = none ∧ a.offset = none ∧ a.scale = none := by
  have hcr : ct.reverse.length = data.shape.length := by rw [List.length_reverse, hlen]
  have hmap : (List.range data.shape.length).map (fun k => ct.reverse[k]?.getD none) = ct.reverse :=
    range_map_getD hcr
  have hord : sortBy (fun i => rank (ct.reverse[i]?.getD none)) (List.range ct.reverse.length) =
      List.range data.shape.length := by
    rw [hcr]
    refine sortBy_id _ ?_
    rw [← hmap, List.pairwise_map] at hs
    exact hs
  have hshape : (List.range data.shape.length).map (fun k => data.shape[k]?.getD 0) = data.shape := range_map_getD rfl
  have hsq : squeeze [] data = ⟨data.shape, fun idx => data.val ((List.range data.shape.length).map fun k =>
      idx[(List.range data.shape.length).idxOf k]?.getD 0)⟩ := by
    unfold squeeze
    dsimp only
    rw [kept_all, hshape]
    simp only [List.not_mem_nil, if_false]
  have hcount : ct.reverse.count none ≤ (defaultLabels ct.reverse).length := by
    unfold defaultLabels
    rw [List.length_reverse, List.length_take]
    have : ct.reverse.count none = ct.count none := (List.reverse_perm ct).count_eq _
    simp only [List.length_cons, List.length_nil]
    omega
  obtain ⟨ls, hls⟩ := labels_exists hcount
  obtain ⟨q1, q2⟩ := labels_ok hls
  obtain ⟨o1, ho1⟩ := reorder?_ok l1
  obtain ⟨o2, ho2⟩ := reorder?_ok l2
  obtain ⟨o3, ho3⟩ := reorder?_ok l3
  obtain ⟨o4, ho4⟩ := reorder?_ok l4
  obtain ⟨o5, ho5⟩ := reorder?_ok l5
  have hfl : flipAxes m.eels ls = [] := by
    unfold flipAxes
    split
    · rename_i hee
      rw [List.filter_eq_nil_iff]
      intro i hi
      rw [List.mem_range] at hi
      rw [decide_eq_true_iff]
      intro hi2
      have hic : i < ct.reverse.length := by omega
      cases hc : ct.reverse[i] with
      | none =>
        -- default labels are single letters
        have gen : ∀ (ds : List Text) (cs : List (Option Text)) (ls : List Text), (∀ d ∈ ds, List.length d = 1) →
            labels ds cs = .ok ls → ∀ i : Nat, cs[i]? = some none → ∃ d : Text, ls[i]? = some d ∧ d.length = 1 := by
          intro ds cs
          induction cs generalizing ds with
          | nil => intro ls _ _ i hi; cases hi
          | cons c cs ih =>
            intro ls hds h i hi
            cases c with
            | some t =>
              rw [labels] at h
              split at h
              · cases h
              · rename_i ls' hl'
                cases h
                cases i with
                | zero => cases hi
                | succ i => exact ih ds ls' hds hl' i (by simpa using hi)
            | none =>
              cases ds with
              | nil => rw [labels] at h; cases h
              | cons d ds =>
                rw [labels] at h
                split at h
                · cases h
                · rename_i ls' hl'
                  cases h
                  cases i with
                  | zero => exact ⟨d, rfl, hds d (List.mem_cons_self ..)⟩
                  | succ i => exact ih ds ls' (fun d hd => hds d (List.mem_cons_of_mem _ hd)) hl' i (by simpa using hi)
        obtain ⟨d, d1, d2⟩ := gen _ _ _ (by
          intro d hd
          unfold defaultLabels at hd
          rw [List.mem_reverse] at hd
          have := List.mem_of_mem_take hd
          simp only [List.mem_cons, List.not_mem_nil, or_false] at this
          rcases this with rfl | rfl | rfl <;> rfl) hls i (by rw [List.getElem?_eq_getElem hic, hc])
        rw [hi2] at d1
        cases d1
        exact absurd d2 (by decide)
      | some t =>
        have := q2 i t (by rw [List.getElem?_eq_getElem hic, hc])
        rw [hi2] at this
        cases this
        exact he hee (List.mem_reverse.1 (hc ▸ List.getElem_mem hic))
    · rfl
  obtain ⟨xs, hx1, hx2⟩ := axes_none (fl := []) (i := 0) (ls := ls) (ns := data.shape)
    (cs := List.replicate data.shape.length none) (by
      intro c hc
      exact List.eq_of_mem_replicate hc)
  have hcal : ∀ n, (List.range data.shape.length).map (fun i => ((List.range data.shape.length).map fun k =>
      (calibrations m n).reverse[k]?.getD none)[i]?.getD none) = List.replicate data.shape.length none := by
    intro n
    rw [range_map_getD (by rw [List.length_map, List.length_range])]
    rw [List.eq_replicate_iff]
    refine ⟨by rw [List.length_map, List.length_range], ?_⟩
    intro b hb
    rw [List.mem_map] at hb
    obtain ⟨k, -, rfl⟩ := hb
    cases hg : (calibrations m n).reverse[k]? with
    | none => rfl
    | some c =>
      have hm := List.mem_of_getElem? hg
      rw [List.mem_reverse] at hm
      unfold calibrations at hm
      rw [List.mem_map] at hm
      obtain ⟨j, -, rfl⟩ := hm
      rw [hd]
      rfl
  have hmv : moveAxes (List.range data.shape.length) (squeeze [] data) = ⟨data.shape, fun idx =>
      (squeeze [] data).val ((List.range data.shape.length).map fun k =>
        idx[(List.range data.shape.length).idxOf k]?.getD 0)⟩ := by
    unfold moveAxes
    rw [List.length_range]
    congr 1
    rw [hsq]
    exact hshape
  have hval : ∀ idx : List Nat, idx.length = data.shape.length →
      ((List.range data.shape.length).map fun k => idx[(List.range data.shape.length).idxOf k]?.getD 0) = idx := by
    intro idx hidx
    rw [← range_map_getD (l := idx) (d := 0) hidx]
    refine List.map_congr_left ?_
    intro k hk
    rw [List.mem_range] at hk
    rw [idxOf_range hk, range_map_getD hidx]
  refine ⟨flip [] (moveAxes (List.range data.shape.length) (squeeze [] data)), xs,
    { m with contentTypes := o1, userCalib := o2, inheritedCalib := o3, size := o4, refSize := o5 }, ?_, ?_, ?_, ?_, hx2⟩
  · unfold importPr
    dsimp only [Arr.ndim]
    rw [hct]
    dsimp only
    rw [if_neg (by omega), trivialDims_none h1]
    dsimp only
    rw [kept_all, hmap, hord, hmap, hls]
    dsimp only
    rw [hfl, hcal]
    have hnd : (flip [] (moveAxes (List.range data.shape.length) (squeeze [] data))).shape = data.shape := by
      rw [hmv]; rfl
    rw [hnd, ho1, ho2, ho3, ho4, ho5, hd, show reorder? data.shape.length (List.range data.shape.length)
      (none : Option (List (Option Calib))) = .ok none from rfl]
    dsimp only
    rw [hx1]
  · rw [hmv]; rfl
  · intro idx hidx
    unfold flip
    dsimp only
    rw [show (idx.mapIdx fun i v => if i ∈ ([] : List Nat) then
      (moveAxes (List.range data.shape.length) (squeeze [] data)).shape[i]?.getD 0 - 1 - v else v) = idx by
        refine List.ext_getElem? ?_
        intro i
        rw [List.getElem?_mapIdx]
        cases idx[i]? <;> simp, hmv]
    dsimp only
    rw [hval idx hidx, hsq]
    dsimp only
    rw [hval idx hidx]
  · obtain ⟨y1, y2⟩ := axes_ok hx1 (by rw [q1, hcr]) (by rw [List.length_replicate])
    refine List.ext_getElem? ?_
    intro i
    rw [List.getElem?_map]
    by_cases hi : i < xs.length
    · rw [List.getElem?_eq_getElem hi]
      obtain ⟨l, n, c, z1, z2, z3, z4⟩ := y2 i xs[i] (List.getElem?_eq_getElem hi)
      rw [z2, Option.map_some, (axis_calibrated z4).2.1]
    · rw [List.getElem?_eq_none_iff.2 (by omega), List.getElem?_eq_none_iff.2 (by rw [y1, q1, hcr] at hi; omega)]
      rfl

/-! ### Written calibrations -/

/-- The calibrations of new files are never used. -/
theorem import_uncalibrated {α : Type} {data out : Arr α} {m m' : Meta} {xs : List Axis} (hd : m.deviceCalib = none)
    (h : importPr data m = .ok (out, xs, m')) : ∀ a ∈ xs, a.units = none ∧ a.offset = none ∧ a.scale = none := by
  obtain ⟨ct, -, -, -, e1, -⟩ := importPr_ok h
  obtain ⟨π, -, -, -, h4, -, h6, -⟩ := import_dims e1 h
  intro a ha
  obtain ⟨i, hi⟩ := List.mem_iff_getElem?.1 ha
  have hil : i < π.length := by
    have := (List.getElem?_eq_some_iff.1 hi).1
    omega
  obtain ⟨-, -, -, hc⟩ := h6 i _ a (List.getElem?_eq_getElem hil) hi
  rw [hd] at hc
  rcases hc with hc | ⟨c', o, v, off, sc, hc, -⟩
  · exact hc.2
  · cases hc

end Verif.Pantarhei
