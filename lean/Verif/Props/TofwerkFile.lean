import Verif.Spec.TofwerkFile
import Verif.Props.TofwerkData
import Verif.Props.TofwerkSum
import Mathlib.Tactic.FieldSimp
import Mathlib.Tactic.Ring
/-! C140: axes and shapes of the signals of Tofwerk files. C141: their times and numbers. -/
namespace Verif.Props.TofwerkFile
open Verif Verif.TofwerkFile Verif.Tofwerk Verif.Spec.Tofwerk Verif.Spec.TofwerkFile

/-! ### C140 -/

theorem planeAxis_spec (c : Char) (name : String) (hn : name.toList = [c]) (n nx : Nat) (f : File) (nav : Bool) :
    InPlane c n nx f.viewField nav (planeAxis name n (pixelSize f nx) nav) := by
  unfold planeAxis
  rw [hn]
  refine ⟨_, rfl, ?_, ?_⟩
  · intro m hm h0
    unfold pixelSize
    rw [if_neg h0, hm]
    refine ⟨_, rfl, rfl, ?_, rfl⟩
    have : (nx : Rat) ≠ 0 := by exact_mod_cast h0
    dsimp only
    rw [div_mul_cancel₀ _ this, mul_comm]
  · rintro (h | h)
    · unfold pixelSize
      rw [h]
      split <;> rfl
    · unfold pixelSize
      rw [if_pos h]
      rfl

theorem depthAxis_spec (n : Nat) : IsSlices n (depthAxis n) := rfl

theorem width_eq {f : File} {w s x : Nat} (hc : Consistent f w s x) (h : f.peakData.isSome ∨ f.events.isSome) :
    width f = x := by
  unfold width
  cases hp : f.peakData with
  | some d => exact (hc.peaks d hp).2.2
  | none =>
    cases he : f.events with
    | some d => dsimp only; rw [hc.events d he]
    | none =>
      rw [hp, he] at h
      rcases h with h | h <;> cases h

theorem segments_eq {f : File} {w s x : Nat} (hc : Consistent f w s x) : nSegments f = s := by
  unfold nSegments
  rw [hc.segments]
  rfl

theorem clip_eq {w a b : Nat} (h : b ≤ w) : clip w a b = b - a := by
  unfold clip
  rw [Nat.min_eq_left h]

theorem nominal_masses (t : List Peak) (mz : Option (Rat × Rat)) :
    MassesFrom t Nominal mz ((nominalTable t mz).map Peak.mass) := by
  have hi : ∀ p, p ∈ nominalTable t mz ↔ p ∈ t ∧ Nominal p ∧ Within mz p.mass := by
    intro p
    unfold nominalTable
    dsimp only
    split
    · rw [List.mem_filter, List.mem_filter, isNominal_iff, inRange_iff, and_assoc]
    · rename_i h
      rw [List.mem_filter, isNominal_iff]
      have : Within mz p.mass := by
        intro a b e
        rw [e] at h
        exact absurd rfl h
      simp [this]
  refine ⟨_, rfl, ?_, fun p hp => ((hi p).1 hp).2⟩
  intro p hn hw
  unfold nominalTable
  dsimp only
  split
  · rw [List.count_filter (p := fun p : Peak => inRange mz p.mass) (inRange_iff.2 hw), List.count_filter (isNominal_iff.2 hn)]
  · rw [List.count_filter (isNominal_iff.2 hn)]

theorem pick_perm {α : Type} {σ : List Nat} {l : List α} (h : σ.Perm (List.range l.length)) : (pick σ l).Perm l := by
  have := h.filterMap fun c => l[c]?
  rw [filterMap_range] at this
  exact this

theorem additional_masses {t : List Peak} {σ : List Nat} (mz : Option (Rat × Rat))
    (hσ : IsArgsort ((t.filter fun p => !isNominal p).map Peak.mass) σ) :
    ∃ ps, additionalTable σ t mz = .ok ps ∧ MassesFrom t (fun p => ¬Nominal p) mz (ps.map Peak.mass) := by
  have hp : σ.Perm (List.range (t.filter fun p => !isNominal p).length) := by
    have := hσ.1
    rwa [List.length_map] at this
  have hlt : ∀ k ∈ σ, k < (t.filter fun p => !isNominal p).length := fun k hk => List.mem_range.1 (hp.mem_iff.1 hk)
  have hadd : ∀ p, (!isNominal p) = true ↔ ¬Nominal p := by
    intro p
    rw [← isNominal_iff]
    simp
  have hperm := pick_perm hp
  unfold additionalTable
  rw [takeAll_pick hlt]
  dsimp only
  refine ⟨_, rfl, _, rfl, ?_, ?_⟩
  · intro p hn hw
    split
    · rw [List.count_filter (p := fun p : Peak => inRange mz p.mass) (inRange_iff.2 hw), hperm.count_eq,
        List.count_filter (p := fun p => !isNominal p) ((hadd p).2 hn)]
    · rw [hperm.count_eq, List.count_filter (p := fun p => !isNominal p) ((hadd p).2 hn)]
  · intro p hmem
    split at hmem
    · rw [List.mem_filter, hperm.mem_iff, List.mem_filter, hadd, inRange_iff] at hmem
      exact ⟨hmem.1.2, hmem.2⟩
    · rename_i h
      rw [hperm.mem_iff, List.mem_filter, hadd] at hmem
      refine ⟨hmem.2, ?_⟩
      intro a b e
      rw [e] at h
      exact absurd rfl h

theorem peaks_axes {f : File} {w s x : Nat} {l : List Rat} {t : List Peak} {kind : Peak → Prop} {mz : Option (Rat × Rat)}
    (k : Sig) (ht : f.table = some t) (hm : MassesFrom t kind mz l) :
    IsPeaks f w s x kind mz ⟨k, axesPeaks w s x l (pixelSize f x), [w, s, x, l.length]⟩ :=
  ⟨_, _, _, _, t, rfl, ht, depthAxis_spec w, planeAxis_spec 'y' "y" rfl s x f true, planeAxis_spec 'x' "x" rfl x x f true,
    hm, rfl⟩

theorem agree_peaks (k : Sig) (w s x : Nat) (l : List Rat) (px : Option Rat) :
    Agree ⟨k, axesPeaks w s x l px, [w, s, x, l.length]⟩ :=
  .cons rfl (.cons rfl (.cons rfl (.cons rfl .nil)))

theorem fillBatches_ok {w s a b step : Nat} (h : b ≤ w) (hab : a ≤ b) : fillBatches w s a (b - a) s step = true := by
  unfold fillBatches
  rw [List.all_eq_true]
  intro w0 hw0
  unfold starts at hw0
  split at hw0
  · cases hw0
  rename_i hs
  rw [List.mem_map] at hw0
  obtain ⟨i, hi, rfl⟩ := hw0
  unfold fits clip
  rw [Bool.and_eq_true, Bool.or_eq_true, decide_eq_true_iff, Bool.or_eq_true, decide_eq_true_iff]
  refine ⟨.inl ?_, .inl (decide_eq_true rfl)⟩
  rw [Nat.min_eq_left (a := a + min (i * step + step) (b - a)) (by omega)]
  omega

/-- A slice of a list is not longer than what is behind its start. -/
theorem slice_length {α : Type} (l : List α) (a b : Nat) : (slice l a b).length = min (b - a) (l.length - a) := by
  unfold slice
  rw [List.length_take, List.length_drop]

theorem images_ok {f : File} {a b : Nat} {d : Nat × Nat} (hd : ∀ i ∈ f.images, i = d) (ha : a < f.images.length)
    (hab : a < b) : ∃ g, imagesSignal f a b = .ok g ∧ g.kind = .images ∧ IsImages f g ∧ Agree g := by
  obtain ⟨h1, h2⟩ := Props.TofwerkSum.dominant_spec f.images f.images
  unfold imagesSignal
  cases e : dominant f.images f.images with
  | none =>
    have := h1.2 e
    rw [this] at ha
    cases ha
  | some d' =>
    obtain ⟨m1, -⟩ := h2 d' e
    have hdd := hd d' m1
    subst hdd
    have hf : f.images.filter (fun i => decide (i = d')) = f.images := by
      rw [List.filter_eq_self]
      intro i hi
      rw [decide_eq_true_iff]
      exact hd i hi
    have hcount : f.images.count d' = f.images.length := List.count_eq_length.2 fun i hi => (hd i hi).symm
    have hn := slice_length (f.images.filter (fun i => decide (i = d'))) a b
    rw [hf] at hn
    dsimp only
    rw [hf, if_neg (by omega)]
    refine ⟨_, rfl, rfl, ⟨_, _, _, _, d'.1, d'.2, rfl, depthAxis_spec _, planeAxis_spec 'y' "y" rfl d'.1 d'.2 f false,
      planeAxis_spec 'x' "x" rfl d'.2 d'.2 f false, rfl, ?_, ?_⟩, .cons rfl (.cons rfl (.cons rfl .nil))⟩
    · rw [hcount]
      omega
    · omega

theorem parts : ∀ y0 y1 y2 y3 y4 : Bool,
    (Sig.nominal ∈ ((if y0 = true then [Sig.sum] else []) ++ (if y1 = true then [Sig.nominal] else []) ++
      (if y2 = true then [Sig.additional] else []) ++ (if y3 = true then [Sig.events] else []) ++
      (if y4 = true then [Sig.images] else [])) → y1 = true) ∧
    (Sig.additional ∈ ((if y0 = true then [Sig.sum] else []) ++ (if y1 = true then [Sig.nominal] else []) ++
      (if y2 = true then [Sig.additional] else []) ++ (if y3 = true then [Sig.events] else []) ++
      (if y4 = true then [Sig.images] else [])) → y2 = true) ∧
    (Sig.events ∈ ((if y0 = true then [Sig.sum] else []) ++ (if y1 = true then [Sig.nominal] else []) ++
      (if y2 = true then [Sig.additional] else []) ++ (if y3 = true then [Sig.events] else []) ++
      (if y4 = true then [Sig.images] else [])) → y3 = true) := by
  decide +kernel

theorem table_some {pd ev : Bool} {table : Option (List Peak)} {q : Peak → Bool}
    (h : ((pd || ev && table.isSome) && !((table.getD []).filter q).isEmpty) = true) :
    (pd = true ∨ ev = true) ∧ ∃ t, table = some t := by
  cases table with
  | none => simp at h
  | some t => exact ⟨by simp at h; tauto, t, rfl⟩

/-- What has to be in the file for a signal. -/
theorem produced_needs {c : Content} {lazy : Bool} {mz : Option (Rat × Rat)} {want : Option (List Sig)} {kinds : List Sig}
    (h : produced c lazy mz want = .ok kinds) :
    (Sig.nominal ∈ kinds ∨ Sig.additional ∈ kinds → (c.peakData = true ∨ c.eventList = true) ∧ ∃ t, c.table = some t) ∧
      (Sig.events ∈ kinds → c.eventList = true) := by
  obtain ⟨pd, ev, table, n⟩ := c
  unfold produced at h
  cases want with
  | none =>
    dsimp only at h ⊢
    rw [if_neg (fun hw => absurd hw.1 Bool.false_ne_true)] at h
    split at h
    · cases h
    rw [← Except.ok.inj h]
    obtain ⟨p1, p2, p3⟩ := parts _ _ _ _ _
    refine ⟨?_, fun hm => ?_⟩
    · rintro (hm | hm)
      · have := p1 hm
        rw [Bool.and_eq_true, Bool.and_eq_true] at this
        exact table_some this.1.2
      · have := p2 hm
        rw [Bool.and_eq_true, Bool.and_eq_true] at this
        exact table_some this.1.2
    · have := p3 hm
      rw [Bool.and_eq_true] at this
      exact this.2
  | some l =>
    dsimp only at h ⊢
    split at h
    · cases h
    split at h
    · cases h
    rw [← Except.ok.inj h]
    obtain ⟨p1, p2, p3⟩ := parts _ _ _ _ _
    refine ⟨?_, fun hm => ?_⟩
    · rintro (hm | hm)
      · have := p1 hm
        rw [Bool.and_eq_true, Bool.and_eq_true] at this
        exact table_some this.1.2
      · have := p2 hm
        rw [Bool.and_eq_true, Bool.and_eq_true] at this
        exact table_some this.1.2
    · have := p3 hm
      rw [Bool.and_eq_true] at this
      exact this.2

theorem signalsOf_ok {f : File} {σ : List Nat} {lazy : Bool} {step a b : Nat} {mz : Option (Rat × Rat)}
    {P : Signal → Prop} : ∀ {kinds : List Sig},
    (∀ k ∈ kinds, ∃ g, signalOf f σ lazy step a b mz k = .ok g ∧ g.kind = k ∧ P g) →
    ∃ l, signalsOf f σ lazy step a b mz kinds = .ok l ∧ l.map Signal.kind = kinds ∧ ∀ g ∈ l, P g
  | [], _ => ⟨[], rfl, rfl, by intro g hg; cases hg⟩
  | k :: kinds, h => by
    obtain ⟨g, hg, hk, hp⟩ := h k List.mem_cons_self
    obtain ⟨l, hl, hks, hps⟩ := signalsOf_ok (kinds := kinds) fun k' hk' => h k' (List.mem_cons_of_mem _ hk')
    refine ⟨g :: l, ?_, by rw [List.map_cons, hk, hks], ?_⟩
    · unfold signalsOf
      rw [hg]
      dsimp only
      rw [hl]
    · intro g' hg'
      rcases List.mem_cons.1 hg' with rfl | hg'
      · exact hp
      · exact hps g' hg'

/-- C140: if the data sets are of the sizes that the attributes tell, then all signals that are asked for are read; every
dimension of the data has an axis of its length, the depth axis counts the slices that are read, and the plane is as wide
as the field of view. Missing from the full claim: data sets of other sizes (`C140_fails_writes`, `C140_fails_segments`,
`C140_fails_fill`), images of several shapes or fewer than slices (`C140_fails_images`), the position of the first slice
(`C140_fails_offset`). -/
theorem C140_reads_partial {f : File} {w s x : Nat} (hc : Consistent f w s x) {depth : Option (Int × Int)} {a b : Nat}
    (hd : IsDepth w depth a b) {mz : Option (Rat × Rat)} (hm : ∀ r, mz = some r → r.1 < r.2) {σ : List Nat}
    (hσ : ∀ t, f.table = some t → IsArgsort ((t.filter fun p => !isNominal p).map Peak.mass) σ) {step : Nat} (hs : step ≠ 0)
    {lazy : Bool} {want : Option (List Sig)} {kinds : List Sig}
    (hk : produced ⟨f.peakData.isSome, f.events.isSome, f.table, f.images.length⟩ lazy mz want = .ok kinds)
    (hi : Sig.images ∈ kinds → a < f.images.length ∧ a < b ∧ ∃ d, ∀ i ∈ f.images, i = d) :
    ∃ l, reader f σ lazy step depth mz want = .ok l ∧ l.map Signal.kind = kinds ∧
      ∀ g ∈ l, IsSignal f (b - a) s x mz g ∧ Agree g := by
  have hb : b ≤ w ∧ a ≤ b := by
    rcases hd with ⟨-, rfl, rfl⟩ | ⟨-, h1, h2⟩
    · exact ⟨Nat.le_refl _, Nat.zero_le _⟩
    · exact ⟨h2, h1.le⟩
  have hr : depthRange (nWrites f) depth = .ok (a, b) := by
    have hw : nWrites f = w := by
      unfold nWrites
      rw [hc.writes]
      rfl
    rw [hw]
    rcases hd with ⟨rfl, rfl, rfl⟩ | ⟨rfl, h1, h2⟩
    · rfl
    · unfold depthRange
      dsimp only
      rw [if_neg (by omega)]
      rfl
  have hmz : mzOk mz = true := by
    cases mz with
    | none => rfl
    | some r => exact decide_eq_true (hm r rfl)
  obtain ⟨n1, n2⟩ := produced_needs hk
  have hseg := segments_eq hc
  have key : ∀ k ∈ kinds, ∃ g, signalOf f σ lazy step a b mz k = .ok g ∧ g.kind = k ∧ (IsSignal f (b - a) s x mz g ∧ Agree g) := by
    intro k hkm
    cases k with
    | sum =>
      refine ⟨sumSignal f, rfl, rfl, ⟨f.massAxis.take (firstValid f.massAxis), f.massAxis.drop (firstValid f.massAxis),
        (List.take_append_drop _ _).symm, rfl, ?_⟩, .cons ?_ .nil⟩
      · unfold sumSignal
        dsimp only
        rw [List.length_drop, hc.sum]
      · unfold Entries
        dsimp only
        rw [List.length_drop, hc.sum]
    | nominal =>
      obtain ⟨hp, t, ht⟩ := n1 (.inl hkm)
      have hx := width_eq hc hp
      dsimp only at ht
      have hsh : ∀ n, nominalShape f a b n = .ok [b - a, s, x, n] := by
        intro n
        unfold nominalShape
        cases hpd : f.peakData with
        | some d =>
          obtain ⟨d1, d2, d3⟩ := hc.peaks d hpd
          dsimp only
          rw [d1, d2, d3, clip_eq hb.1]
        | none =>
          cases hev : f.events with
          | some d =>
            dsimp only
            rw [hc.events d hev]
            dsimp only
            rw [clip_eq hb.1]
          | none =>
            rw [hpd, hev] at hp
            rcases hp with h | h <;> cases h
      refine ⟨⟨.nominal, axesPeaks (b - a) s x ((nominalTable t mz).map Peak.mass) (pixelSize f x),
        [b - a, s, x, ((nominalTable t mz).map Peak.mass).length]⟩, ?_, rfl, peaks_axes .nominal ht (nominal_masses t mz),
        agree_peaks _ _ _ _ _ _⟩
      unfold signalOf nominalSignal
      dsimp only
      rw [hsh, ht, hx, hseg]
      rfl
    | additional =>
      obtain ⟨hp, t, ht⟩ := n1 (.inr hkm)
      have hx := width_eq hc hp
      dsimp only at ht
      obtain ⟨ps, h1, h2⟩ := additional_masses mz (hσ t ht)
      have hsh : ∀ n, additionalShape f lazy mz step a b n = .ok [b - a, s, x, n] := by
        intro n
        unfold additionalShape
        cases hpd : f.peakData with
        | some d =>
          obtain ⟨d1, d2, d3⟩ := hc.peaks d hpd
          dsimp only
          rw [d1, d2, d3, clip_eq hb.1, hseg, hx, if_neg hs, fillBatches_ok hb.1 hb.2, if_pos rfl]
          split <;> rfl
        | none =>
          cases hev : f.events with
          | some d =>
            dsimp only
            rw [hc.events d hev]
            dsimp only
            rw [clip_eq hb.1]
          | none =>
            rw [hpd, hev] at hp
            rcases hp with h | h <;> cases h
      refine ⟨⟨.additional, axesPeaks (b - a) s x (ps.map Peak.mass) (pixelSize f x), [b - a, s, x, (ps.map Peak.mass).length]⟩,
        ?_, rfl, peaks_axes .additional ht h2, agree_peaks _ _ _ _ _ _⟩
      unfold signalOf additionalSignal
      dsimp only
      rw [ht]
      dsimp only [Option.getD_some]
      rw [h1]
      dsimp only
      rw [hsh, hx, hseg, List.length_map]
    | events =>
      have he := n2 hkm
      have hx := width_eq hc (.inr he)
      have hsh : eventsShape f lazy a b = .ok [b - a, s, x] := by
        unfold eventsShape
        cases hev : f.events with
        | none =>
          dsimp only at he
          rw [hev] at he
          cases he
        | some d =>
          dsimp only
          rw [hc.events d hev]
          dsimp only
          rw [clip_eq hb.1, hseg, hx]
          unfold fits
          rw [decide_eq_true rfl, decide_eq_true rfl, Bool.true_or, Bool.true_or, if_neg (show ¬ w < b by omega)]
          split
          · rfl
          · split
            · rename_i h
              rw [h, Nat.sub_self]
            · rfl
      refine ⟨⟨.events, axesEvents (b - a) s x (pixelSize f x), [b - a, s, x]⟩, ?_, rfl,
        ⟨_, _, _, rfl, depthAxis_spec _, planeAxis_spec 'y' "y" rfl s x f true, planeAxis_spec 'x' "x" rfl x x f true, rfl⟩,
        .cons rfl (.cons rfl (.cons rfl .nil))⟩
      unfold signalOf eventsSignal
      dsimp only
      rw [hsh, hx, hseg]
    | images =>
      obtain ⟨h1, h2, d, h3⟩ := hi hkm
      obtain ⟨g, hg, hkind, hsp, hag⟩ := images_ok h3 h1 h2
      refine ⟨g, hg, hkind, ?_, hag⟩
      unfold IsSignal
      rw [hkind]
      exact hsp
  obtain ⟨l, hl, hks, hps⟩ := signalsOf_ok key
  refine ⟨l, ?_, hks, hps⟩
  unfold reader
  rw [hr]
  change (if mzOk mz = true then (produced (contentOf f) lazy mz want >>= fun kinds => signalsOf f σ lazy step a b mz kinds)
    else .error .valueError) = _
  rw [if_pos hmz]
  have hk' : produced (contentOf f) lazy mz want = .ok kinds := hk
  rw [hk']
  exact hl

/-- C140: an empty range of slices or masses is refused. -/
theorem C140_rejects (f : File) (σ : List Nat) (lazy : Bool) (step : Nat) (depth : Option (Int × Int)) (mz : Option (Rat × Rat))
    (want : Option (List Sig))
    (h : (∃ a b n, depth = some (a, b) ∧ f.writes = some n ∧ (a < 0 ∨ b > (n : Int) ∨ a ≥ b)) ∨ (∃ r, mz = some r ∧ r.1 ≥ r.2)) :
    reader f σ lazy step depth mz want = .error .valueError := by
  unfold reader
  rcases h with ⟨a, b, n, rfl, h1, h2⟩ | ⟨r, rfl, hr⟩
  · have : depthRange (nWrites f) (some (a, b)) = .error .valueError := by
      unfold depthRange nWrites
      rw [h1]
      dsimp only [Option.getD_some]
      rw [if_pos h2]
    rw [this]
    rfl
  · have hm : mzOk (some r) = false := decide_eq_false (not_lt.2 hr)
    have hd : depthRange (nWrites f) depth = .error .valueError ∨ ∃ q, depthRange (nWrites f) depth = .ok q := by
      unfold depthRange
      split
      · exact .inr ⟨_, rfl⟩
      · split
        · exact .inl rfl
        · exact .inr ⟨_, rfl⟩
    rcases hd with hd | ⟨q, hd⟩
    · rw [hd]
      rfl
    · rw [hd]
      change (if mzOk (some r) = true then _ else _) = _
      rw [hm]
      rfl

/-- C140: titles differ, and the type of the signal is that of spectra of ions for peaks and the sum, and none for others. -/
theorem C140_titles (stem : Text) : (∀ k k', titleOf stem k = titleOf stem k' → k = k') ∧
    (∀ k, ∃ t, titleOf stem k = stem ++ ' ' :: '(' :: t) ∧
    ∀ k, typeOf k = if k = .events ∨ k = .images then [] else ['F', 'I', 'B', '-', 'S', 'I', 'M', 'S'] := by
  refine ⟨?_, ?_, ?_⟩
  · intro k k' h
    cases k <;> cases k' <;> first | rfl | (exact absurd (List.append_cancel_left h) (by decide))
  · intro k
    cases k <;> exact ⟨_, rfl⟩
  · intro k
    cases k <;> rfl

/-! ### C141: times -/

theorem pad2_two {n : Nat} (h : n < 100) : pad2 n = two n := by
  have q : ∀ k ∈ List.range 100, pad2 k = two k := by decide +kernel
  exact q n (List.mem_range.2 h)

theorem pad4_four {n : Nat} (h : n < 10000) : pad4 n = four n := by
  unfold pad4 four two
  rw [decChars_eq]
  split
  · rename_i h1
    have e1 : n / 100 / 10 = 0 := by omega
    have e2 : n / 100 % 10 = 0 := by omega
    have e3 : n % 100 / 10 = 0 := by omega
    have e4 : n % 100 % 10 = n := by omega
    rw [e1, e2, e3, e4]
    rfl
  rw [decChars_eq]
  split
  · rename_i h1 h2
    have e1 : n / 100 / 10 = 0 := by omega
    have e2 : n / 100 % 10 = 0 := by omega
    have e3 : n % 100 / 10 = n / 10 := by omega
    have e4 : n % 100 % 10 = n % 10 := by omega
    rw [e1, e2, e3, e4]
    rfl
  rw [decChars_eq]
  split
  · rename_i h1 h2 h3
    have e1 : n / 100 / 10 = 0 := by omega
    have e2 : n / 100 % 10 = n / 10 / 10 := by omega
    have e3 : n % 100 / 10 = n / 10 % 10 := by omega
    have e4 : n % 100 % 10 = n % 10 := by omega
    rw [e1, e2, e3, e4]
    rfl
  rw [decChars_eq, if_pos (by omega)]
  have e1 : n / 100 / 10 = n / 10 / 10 / 10 := by omega
  have e2 : n / 100 % 10 = n / 10 / 10 % 10 := by omega
  have e3 : n % 100 / 10 = n / 10 % 10 := by omega
  have e4 : n % 100 % 10 = n % 10 := by omega
  rw [e1, e2, e3, e4]
  rfl

theorem zone_spec {s : Int} (h : s.natAbs < 86400) : IsZone s (zoneText (some s)) := by
  refine ⟨s.natAbs / 60 / 60, s.natAbs / 60 % 60, s.natAbs % 60, Nat.mod_lt _ (by omega), Nat.mod_lt _ (by omega), ?_⟩
  unfold zoneText
  dsimp only
  rw [pad2_two (by omega), pad2_two (by omega)]
  by_cases hs : 0 ≤ s
  · rw [if_pos hs]
    exact .inl ⟨by omega, rfl⟩
  · rw [if_neg hs]
    exact .inr ⟨by omega, by omega, rfl⟩

/-- C141: the date and the time are those of the log, with the difference to UTC in hours and minutes; without a readable log
they are those of the file, without a zone; and if there is none, they are empty. -/
theorem C141_time (P : Parsers) (log attr : Option Text) :
    (∀ t m, log = some t → P.iso t = some m → Calendar m → ∃ z, creationTime P log attr =
      (four m.year ++ ['-'] ++ two m.month ++ ['-'] ++ two m.day,
        two m.hour ++ [':'] ++ two m.minute ++ [':'] ++ two m.second, z) ∧
      (∀ s, m.offset = some s → IsZone s z) ∧ (m.offset = none → z = [])) ∧
    ((∀ t, log = some t → P.iso t = none) → (∀ t m, attr = some t → P.dotted t = some m → Calendar m →
      creationTime P log attr = (four m.year ++ ['-'] ++ two m.month ++ ['-'] ++ two m.day,
        two m.hour ++ [':'] ++ two m.minute ++ [':'] ++ two m.second, [])) ∧
      ((∀ t, attr = some t → P.dotted t = none) → P.dotted [] = none → creationTime P log attr = ([], [], []))) := by
  have hdate : ∀ m, Calendar m → dateText m = four m.year ++ ['-'] ++ two m.month ++ ['-'] ++ two m.day := by
    rintro m ⟨h1, h2, h3, -⟩
    unfold dateText
    rw [pad4_four h1, pad2_two h2, pad2_two h3]
    simp
  have htime : ∀ m, Calendar m → timeText m = two m.hour ++ [':'] ++ two m.minute ++ [':'] ++ two m.second := by
    rintro m ⟨-, -, -, h1, h2, h3, -⟩
    unfold timeText
    rw [pad2_two (by omega), pad2_two (by omega), pad2_two (by omega)]
    simp
  refine ⟨?_, ?_⟩
  · rintro t m rfl hi hc
    refine ⟨zoneText m.offset, ?_, ?_, ?_⟩
    · unfold creationTime
      rw [Option.bind_some, hi]
      dsimp only
      rw [hdate m hc, htime m hc]
    · intro s hs
      rw [hs]
      exact zone_spec (hc.2.2.2.2.2.2 s hs)
    · intro hs
      rw [hs]
      rfl
  · intro hl
    have hb : log.bind P.iso = none := by
      cases log with
      | none => rfl
      | some t => exact hl t rfl
    refine ⟨?_, ?_⟩
    · rintro t m rfl hd hc
      unfold creationTime
      rw [hb]
      dsimp only [Option.getD_some]
      rw [hd]
      dsimp only
      rw [hdate m hc, htime m hc]
    · intro ha h0
      have hd : P.dotted (attr.getD []) = none := by
        cases attr with
        | none => exact h0
        | some t => exact ha t rfl
      unfold creationTime
      rw [hb]
      dsimp only
      rw [hd]

/-! ### C141: numbers -/

theorem range_spec : ∀ {l : List Rat}, l ≠ [] → IsRange l (minOf l, maxOf l)
  | [], h => absurd rfl h
  | [a], _ => ⟨List.mem_cons_self, List.mem_cons_self, by
      intro x hx
      rw [List.mem_singleton] at hx
      subst hx
      exact ⟨le_refl _, le_refl _⟩⟩
  | a :: b :: l, _ => by
    obtain ⟨h1, h2, h3⟩ := range_spec (l := b :: l) (by simp)
    dsimp only at h1 h2 h3
    refine ⟨?_, ?_, ?_⟩
    · dsimp only
      rw [minOf]
      rcases min_choice a (minOf (b :: l)) with h | h
      · rw [h]; exact List.mem_cons_self
      · rw [h]; exact List.mem_cons_of_mem _ h1
      · simp
    · dsimp only
      rw [maxOf]
      rcases max_choice a (maxOf (b :: l)) with h | h
      · rw [h]; exact List.mem_cons_self
      · rw [h]; exact List.mem_cons_of_mem _ h2
      · simp
    · intro x hx
      dsimp only
      rw [minOf, maxOf]
      · rcases List.mem_cons.1 hx with rfl | hx
        · exact ⟨min_le_left _ _, le_max_left _ _⟩
        · exact ⟨(min_le_right _ _).trans (h3 x hx).1, (h3 x hx).2.trans (le_max_right _ _)⟩
      · simp
      · simp

/-- C141: the range of masses is from the least to the greatest: of the peaks, or of the positive masses of the axis if there are
no data of peaks. -/
theorem C141_masses (f : File) :
    (∀ d t, f.peakData = some d → f.table = some t → t ≠ [] → IsRange (t.map Peak.mass) (massRange f)) ∧
    (f.peakData = none → (∃ x ∈ f.massAxis, 0 < x) → 0 < (massRange f).1 ∧ (massRange f).1 ∈ f.massAxis ∧
      (massRange f).2 ∈ f.massAxis ∧ ∀ x ∈ f.massAxis, 0 < x → (massRange f).1 ≤ x ∧ x ≤ (massRange f).2) := by
  refine ⟨?_, ?_⟩
  · intro d t hd ht hn
    unfold massRange
    rw [hd, ht]
    exact range_spec (by simpa using hn)
  · rintro hd ⟨x, hx, h0⟩
    have hne : f.massAxis.filter (0 < ·) ≠ [] := List.ne_nil_of_mem (List.mem_filter.2 ⟨hx, decide_eq_true h0⟩)
    obtain ⟨h1, h2, h3⟩ := range_spec hne
    unfold massRange
    rw [hd]
    dsimp only at h1 h2 h3 ⊢
    rw [List.mem_filter, decide_eq_true_iff] at h1 h2
    exact ⟨h1.2, h1.1, h2.1, fun y hy hy0 => h3 y (List.mem_filter.2 ⟨hy, decide_eq_true hy0⟩)⟩

/-- C141: with as many pixels in a row as segments, the pixel size of the metadata is the one of the axes. Missing from the full
claim: rows of another number of pixels, `C141_fails_pixel`. -/
theorem C141_pixel_partial {f : File} {w x : Nat} (hc : Consistent f w x x) (hx : x ≠ 0) {v : Rat} (hv : f.viewField = some v) :
    ∃ p, metaPixel f = some p ∧ p * x = 1000 * v := by
  have h : (x : Rat) ≠ 0 := by exact_mod_cast hx
  unfold metaPixel pixelSize
  rw [segments_eq hc, if_neg hx, hv]
  refine ⟨_, rfl, ?_⟩
  rw [div_mul_cancel₀ _ h, mul_comm]

/-! ### C141: reconstruction -/

theorem entryAt_entry {c : Char} {v : Nat} (hc : isDigit c = true) (hv : v < 10) (t : Text) :
    entryAt (entry c v ++ t) = some (v, t) := by
  have h : isDigit (digitChar v) = true := by
    unfold isDigit
    rw [digitChar_toNat hv]
    exact decide_eq_true (by omega)
  change (if isDigit c && isDigit (digitChar v) then some ((digitChar v).toNat - 48, t) else none) = _
  rw [hc, h, digitChar_toNat hv]
  change some (48 + v - 48, t) = _
  rw [Nat.add_sub_cancel_left]

theorem digit_eq {c : Char} (h : isDigit c = true) : c.toNat - 48 < 10 ∧ c = digitChar (c.toNat - 48) := by
  unfold isDigit at h
  rw [decide_eq_true_iff] at h
  refine ⟨by omega, ?_⟩
  unfold digitChar
  have : 48 + (c.toNat - 48) = c.toNat := by omega
  rw [this, Char.ofNat_toNat]

theorem entryAt_none {t : Text} (h : ¬Starts t) : entryAt t = none := by
  unfold entryAt
  split
  · rename_i c v rest
    split
    · rename_i hd
      rw [Bool.and_eq_true] at hd
      exfalso
      obtain ⟨h1, h2⟩ := digit_eq hd.2
      refine h ⟨c, v.toNat - 48, rest, hd.1, h1, ?_⟩
      unfold entry
      rw [← h2]
      rfl
    · rfl
  · rfl

theorem findEntries_config : ∀ {l : List (Char × Nat)} {t : Text}, Config l t → ∀ n, t.length ≤ n →
    findEntries n t = l.map Prod.snd := by
  intro l t h
  induction h with
  | nil =>
    intro n _
    cases n with
    | zero => rfl
    | succ n => rfl
  | @other c t l hs _ ih =>
    intro n hn
    cases n with
    | zero => cases hn
    | succ n =>
      unfold findEntries
      rw [entryAt_none hs]
      exact ih n (by simpa using hn)
  | @channel l t c v hc hv _ ih =>
    intro n hn
    cases n with
    | zero => cases hn
    | succ n =>
      unfold findEntries
      rw [entryAt_entry hc hv]
      dsimp only
      rw [List.map_cons, ih n]
      have : (entry c v ++ t).length = 11 + t.length := by
        rw [List.length_append]
        rfl
      omega

/-- C141: of a configuration in which every channel is switched on (1) or off (0), the number of channels is the number of those
that are on, and one if there is none; the normalisation is this number for every waveform. Missing from the full claim: channels with a
number of two digits (`C141_fails_channels`), numbers other than 0 and 1 (`C141_fails_values`). -/
theorem C141_channels_partial {l : List (Char × Nat)} {ini : Text} (h : Config l ini) (hv : ∀ p ∈ l, p.2 = 0 ∨ p.2 = 1) :
    activeChannels ini = (if (l.filter fun p => p.2 = 1).length = 0 then 1 else (l.filter fun p => p.2 = 1).length) ∧
    ∀ n, normalization (some n) (some ini) = n * activeChannels ini := by
  have hsum : ∀ l : List (Char × Nat), (∀ p ∈ l, p.2 = 0 ∨ p.2 = 1) →
      (l.map Prod.snd).sum = (l.filter fun p => p.2 = 1).length := by
    intro l
    induction l with
    | nil => intro _; rfl
    | cons p l ih =>
      intro hv
      rw [List.map_cons, List.sum_cons, ih fun q hq => hv q (List.mem_cons_of_mem _ hq), List.filter_cons]
      rcases hv p List.mem_cons_self with h | h
      · rw [h]; simp
      · rw [h]; simp; omega
  refine ⟨?_, fun n => rfl⟩
  unfold activeChannels
  rw [findEntries_config h _ (le_refl _), hsum l hv]
  split
  · rename_i h0
    rw [h0]
    rfl
  · omega

/-- C141: samples are a whole number of clock ticks apart: this number is used. Without a clock there is one tick per sample. Missing
from the full claim: a clock without the interval of samples, `C141_fails_interval`. -/
theorem C141_clock_partial (c : Rat) (k : Int) : (c ≠ 0 → clockRatio (some c) (some (k * c)) = k) ∧
    (∀ i, clockRatio none i = 1) ∧ ∀ i, clockRatio (some 0) i = 1 := by
  refine ⟨?_, fun i => rfl, fun i => rfl⟩
  intro hc
  unfold clockRatio
  dsimp only
  rw [if_neg hc, Option.getD_some, mul_div_assoc, div_self hc, mul_one]
  unfold roundEven
  rw [Int.floor_intCast, sub_self, if_pos (by norm_num)]

end Verif.Props.TofwerkFile
