import Verif.Lemmas.DelmicFinish
import Mathlib.Data.List.Induction
/-! Scans of angle-resolved images, for `Model/Delmic`. -/
namespace Verif.Delmic
open Verif Verif.Delmic.Spec

theorem forall₂_mem {α β : Type} {R : α → β → Prop} : ∀ {l : List α} {m : List β}, List.Forall₂ R l m → ∀ a ∈ l, ∃ b ∈ m, R a b
  | _, _, .nil, a, h => by cases h
  | _, _, .cons h t, a, ha => by
    rcases List.mem_cons.1 ha with rfl | ha
    · exact ⟨_, by simp, h⟩
    · obtain ⟨b, hb, hr⟩ := forall₂_mem t a ha
      exact ⟨b, by simp [hb], hr⟩

theorem forall₂_mem' {α β : Type} {R : α → β → Prop} : ∀ {l : List α} {m : List β}, List.Forall₂ R l m → ∀ b ∈ m, ∃ a ∈ l, R a b
  | _, _, .nil, a, h => by cases h
  | _, _, .cons h t, b, hb => by
    rcases List.mem_cons.1 hb with rfl | hb
    · exact ⟨_, by simp, h⟩
    · obtain ⟨a, ha, hr⟩ := forall₂_mem' t b hb
      exact ⟨a, by simp [ha], hr⟩

theorem forall₂_map_eq {α β γ : Type} {R : α → β → Prop} {f : α → γ} {g : β → γ} (h : ∀ a b, R a b → g b = f a) :
    ∀ {l : List α} {m : List β}, List.Forall₂ R l m → m.map g = l.map f
  | _, _, .nil => rfl
  | _, _, .cons h1 t => by rw [List.map_cons, List.map_cons, h _ _ h1, forall₂_map_eq h t]

theorem flatten_getElem {α : Type} (m : Nat) : ∀ (L : List (List α)), (∀ x ∈ L, x.length = m) → ∀ i j, j < m →
    L.flatten[i * m + j]? = L[i]?.bind (·[j]?)
  | [], _, i, j, _ => by simp
  | x :: L, h, 0, j, hj => by
    have := h x (by simp)
    rw [List.flatten_cons, List.getElem?_append_left (by omega)]
    simp
  | x :: L, h, i + 1, j, hj => by
    have := h x (by simp)
    rw [List.flatten_cons, List.getElem?_append_right (by rw [this, Nat.add_mul]; omega), this]
    have e : (i + 1) * m + j - m = i * m + j := by rw [Nat.add_mul]; omega
    rw [e, flatten_getElem m L (fun y hy => h y (by simp [hy])) i j hj]
    simp

theorem flatten_len {α : Type} (m : Nat) : ∀ (L : List (List α)), (∀ x ∈ L, x.length = m) → L.flatten.length = L.length * m
  | [], _ => by simp
  | x :: L, h => by
    rw [List.flatten_cons, List.length_append, flatten_len m L fun y hy => h y (by simp [hy]), h x (by simp), List.length_cons]
    ring

section
variable {utc : Utc} {l : List Rec} {ss : List Sig} {se : Rec} {sse : Sig}

theorem dates_eq (h : List.Forall₂ (IsRead utc) l ss) : ss.map dateOf = l.map Rec.time := forall₂_map_eq (fun _ _ h => h.date) h

theorem before_eq (h : List.Forall₂ (IsRead utc) l ss) {r : Rec} {s : Sig} (hr : IsRead utc r s) :
    (ss.filter fun x => dateOf x < dateOf s).length = before l r := by
  have e : ∀ {α : Type} (f : α → ℚ) (q : ℚ) (m : List α), (m.filter fun x => f x < q).length = ((m.map f).filter fun y => y < q).length := by
    intro α f q m
    rw [List.filter_map, List.length_map]
    rfl
  rw [before, e dateOf, e Rec.time, dates_eq h, hr.date]

theorem se_axes (hs : Sound se) (hg : se.acq.labels.drop 3 = [['Y'], ['X']]) (h : IsRead utc se sse) {y x : Nat}
    (hyx : se.acq.shape.drop 3 = [y, x]) : sse.axes.drop 3 = [makeAxis se.acq.image ['Y'] y, makeAxis se.acq.image ['X'] x] := by
  rw [h.axes, makeAxes, ← List.map_drop, List.zip, List.drop_zipWith, hg, hyx]
  rfl

theorem last_two {l : List Nat} (h : l.length = 5) : ∃ p q t y x, l = [p, q, t, y, x] := by
  match l, h with
  | [p, q, t, y, x], _ => exact ⟨p, q, t, y, x, rfl⟩

theorem scan_ok (h : List.Forall₂ (IsRead utc) l ss) (hl : ∀ r ∈ l, Sound r) (hk : ∀ r ∈ l, r.kind = .ar) (hne : l ≠ []) (hs : Sound se)
    (hg : se.acq.labels.drop 3 = [['Y'], ['X']]) (hse : IsRead utc se sse) (ht : (l.map Rec.time).Nodup) {y x b a : Nat} (hf : Fills l se y x b a) :
    ∃ m s, mergeAr ss sse = .ok m ∧ reorder (squeeze m) = .ok s ∧ ShowsScan l se y x b a s ∧ ScanMeta utc l s := by
  obtain ⟨hyx, hn, hsh⟩ := hf
  have hlen : ss.length = l.length := h.length_eq.symm
  have hp := sortBy_perm dateOf ss
  have hmem : ∀ s ∈ sortBy dateOf ss, ∃ r ∈ l, IsRead utc r s := fun s hs => forall₂_mem' h s (hp.mem_iff.1 hs)
  have hrank : ∀ r ∈ l, ∃ s, IsRead utc r s ∧ (sortBy dateOf ss)[before l r]? = some s := by
    intro r hr
    obtain ⟨s, h1, h2⟩ := forall₂_mem h r hr
    refine ⟨s, h2, ?_⟩
    rw [← before_eq h h2]
    exact sortBy_rank dateOf (by rw [dates_eq h]; exact ht) h1
  have hshape : ∀ s ∈ sortBy dateOf ss, s.shape = [1, 1, 1, b, a] := by
    intro s hs'
    obtain ⟨r, h1, h2⟩ := hmem s hs'
    rw [h2.shape, hsh r h1]
  have hdata : ∀ s ∈ sortBy dateOf ss, s.data.length = b * a := by
    intro s hs'
    obtain ⟨r, h1, h2⟩ := hmem s hs'
    rw [h2.data, (hl r h1).data, hsh r h1]
    simp
  have hsl : (sortBy dateOf ss).length = y * x := by rw [hp.length_eq, hlen, hn]
  cases hso : sortBy dateOf ss with
  | nil =>
    exfalso
    rw [hso] at hsl
    cases l with
    | nil => exact hne rfl
    | cons _ _ => rw [← hsl] at hn; simp at hn
  | cons ar0 rest =>
    have hflat : (((ar0 :: rest).map fun s => s.data).flatten).length = y * x * (b * a) := by
      rw [flatten_len (b * a), List.length_map, ← hso, hsl]
      intro d hd
      obtain ⟨s, h1, rfl⟩ := List.mem_map.1 hd
      exact hdata s (hso ▸ h1)
    have h0 : ar0.shape = [1, 1, 1, b, a] := hshape ar0 (by rw [hso]; simp)
    obtain ⟨r0, hr0, hr0'⟩ := hmem ar0 (by rw [hso]; simp)
    let m : Sig := ⟨ar0.kind, [y, x, b, a], ((ar0 :: rest).map fun s => s.data).flatten,
      [makeAxis se.acq.image ['Y'] y, makeAxis se.acq.image ['X'] x, pixelAxis "Angle B" b, pixelAxis "Angle A" a], ar0.metadata, ar0.original⟩
    have hm : mergeAr ss sse = .ok m := by
      unfold mergeAr
      rw [hse.shape, hyx, se_axes hs hg hse hyx, hso]
      dsimp only
      rw [if_neg (by rw [Nat.mul_comm, hlen, hn]; simp), h0]
      dsimp only [List.drop]
      rw [if_neg, if_neg]
      · rw [hflat]
        simp only [size, ne_eq, Decidable.not_not]
        ring
      · rw [Bool.not_eq_true, List.any_eq_false]
        intro s hs'
        rw [hshape s (by rw [hso]; simp [hs'])]
        simp
    have nY : (makeAxis se.acq.image ['Y'] y).name = "Y".toList := (makeAxis_shows hs.image ['Y'] y).1
    have nX : (makeAxis se.acq.image ['X'] x).name = "X".toList := (makeAxis_shows hs.image ['X'] x).1
    have hkn : ((kept m).map fun d => d.2.name).Sublist ["Y".toList, "X".toList, "Angle B".toList, "Angle A".toList] := by
      have : List.Sublist ((kept m).map fun d => d.2.name) ((m.shape.zip m.axes).map fun d => d.2.name) := List.filter_sublist.map _
      have e : ((m.shape.zip m.axes).map fun d => d.2.name) = ["Y".toList, "X".toList, "Angle B".toList, "Angle A".toList] := by
        simp only [m, List.zip_cons_cons, List.map_cons, nY, nX]
        rfl
      rwa [e] at this
    have hnd : ((kept m).map fun d => d.2.name).Nodup := hkn.nodup (by decide)
    obtain ⟨s, h1, h2, h3, h4, -, -, h7, h8, h9⟩ := finish_ok m rfl hnd (by
      simp only [m]
      rw [hflat]
      simp only [size]
      ring)
    have hsq : reorder (squeeze m) = .ok (squeeze m) := by
      unfold reorder
      dsimp only
      rw [if_pos]
      have hw : ((squeeze m).axes.map Axis.name).Pairwise fun p q => axisRank p ≤ axisRank q := by
        have : ((squeeze m).axes.map Axis.name) = ((kept m).map fun d => d.2.name) := by
          show ((kept m).map Prod.snd).map Axis.name = _
          rw [List.map_map]; rfl
        rw [this]
        exact List.Pairwise.sublist hkn (by decide)
      exact sorted_eq axisRank (sortBy_sorted _ _) hw fun k => sortBy_filter _ _ _
    have hss : s = squeeze m := by rw [h1] at hsq; exact Except.ok.inj hsq
    have hfst : (squeeze m).shape = (kept m).map Prod.fst := (zip_filter_fst m.shape m.axes rfl).symm
    refine ⟨m, s, hm, h1, ⟨?_, ?_, h7, ?_, by rw [h8, size_prod], ?_⟩, ?_⟩
    · rw [h2]
      show ar0.kind = _
      rw [hr0'.kind, hk r0 hr0]
    · rw [hss, hfst]
      show (((kept m).map Prod.snd).map Axis.name).zip _ = _
      have e1 : ∀ K : List (Nat × Axis), ((K.map Prod.snd).map Axis.name).zip (K.map Prod.fst) = K.map fun d => (d.2.name, d.1) := by
        intro K
        induction K with
        | nil => rfl
        | cons d K ih => simp only [List.map_cons, List.zip_cons_cons, ih]
      rw [e1, kept]
      have e2 : ∀ K : List (Nat × Axis), (K.filter fun d => d.1 ≠ 1).map (fun d => (d.2.name, d.1)) =
          (K.map fun d => (d.2.name, d.1)).filter fun d => d.2 ≠ 1 := by
        intro K
        rw [List.filter_map]
        rfl
      rw [e2]
      congr 1
      simp only [m, List.zip_cons_cons, List.map_cons, nY, nX]
      rfl
    · intro z hz
      rw [hss] at hz
      have : z ∈ m.axes := by
        have : z ∈ (kept m).map Prod.snd := hz
        obtain ⟨d, hd, rfl⟩ := List.mem_map.1 this
        exact (List.of_mem_zip (List.mem_filter.1 hd).1).2
      simp only [m, List.mem_cons, List.not_mem_nil, or_false] at this
      rcases this with rfl | rfl | rfl | rfl
      · exact .inl (makeAxis_shows hs.image _ _)
      · exact .inr (.inl (makeAxis_shows hs.image _ _))
      · exact .inr (.inr (.inl rfl))
      · exact .inr (.inr (.inr rfl))
    · intro r hr place p1 p2 p3 p4 hb
      rw [h9 place]
      · obtain ⟨s0, hs0, hat⟩ := hrank r hr
        have e0 : (m.axes.map fun z => place z.name) = [place "Y".toList, place "X".toList, place "Angle B".toList, place "Angle A".toList] := by
          simp only [m, List.map_cons, nY, nX]
          rfl
        rw [e0]
        have e : flatIndex m.shape [place "Y".toList, place "X".toList, place "Angle B".toList, place "Angle A".toList] =
            before l r * (b * a) + (place "Angle B".toList * a + place "Angle A".toList) := by
          rw [hb]
          simp only [m, flatIndex, size]
          ring
        rw [e]
        show (((ar0 :: rest).map fun s => s.data).flatten)[_]? = _
        rw [flatten_getElem (b * a), ← hso, List.getElem?_map, hat, ← hs0.data]
        · rfl
        · intro d hd
          obtain ⟨s, h1, rfl⟩ := List.mem_map.1 hd
          exact hdata s (hso ▸ h1)
        · calc place "Angle B".toList * a + place "Angle A".toList < place "Angle B".toList * a + a := by omega
            _ = (place "Angle B".toList + 1) * a := by ring
            _ ≤ b * a := Nat.mul_le_mul_right _ p3
      · intro d hd
        simp only [m, List.zip_cons_cons, List.zip_nil_right, List.mem_cons, List.not_mem_nil, or_false] at hd
        rcases hd with rfl | rfl | rfl | rfl
        · dsimp only; rw [nY]; exact p1
        · dsimp only; rw [nX]; exact p2
        · exact p3
        · exact p4
    · intro r hr hb
      obtain ⟨s0, hs0, hat⟩ := hrank r hr
      rw [hb, hso] at hat
      have : ar0 = s0 := by simpa using hat
      rw [h3, h4]
      show ShowsMeta utc r ar0.metadata ar0.original
      rw [this]
      exact hs0.info

theorem scan_not (h : List.Forall₂ (IsRead utc) l ss) (hl : ∀ r ∈ l, Sound r) (hne : l ≠ []) (hs : Sound se)
    (hg : se.acq.labels.drop 3 = [['Y'], ['X']]) (hse : IsRead utc se sse) (hf : ¬ ∃ y x b a, Fills l se y x b a) :
    ∃ e, mergeAr ss sse = .error e := by
  have hlen : ss.length = l.length := h.length_eq.symm
  have hp := sortBy_perm dateOf ss
  have hmem : ∀ s ∈ sortBy dateOf ss, ∃ r ∈ l, IsRead utc r s := fun s hs => forall₂_mem' h s (hp.mem_iff.1 hs)
  obtain ⟨_, _, _, y, x, hyx⟩ := last_two hs.shape
  have hyx' : se.acq.shape.drop 3 = [y, x] := by rw [hyx]; rfl
  unfold mergeAr
  rw [hse.shape, hyx', se_axes hs hg hse hyx']
  cases hso : sortBy dateOf ss with
  | nil => exact ⟨_, rfl⟩
  | cons ar0 rest =>
    dsimp only
    by_cases h1 : x * y ≠ ss.length
    · rw [if_pos h1]; exact ⟨_, rfl⟩
    rw [if_neg h1]
    obtain ⟨r0, hr0, hr0'⟩ := hmem ar0 (by rw [hso]; simp)
    obtain ⟨p, q, t, b, a, e0⟩ := last_two (hl r0 hr0).shape
    have e1 : ar0.shape = [p, q, t, b, a] := by rw [hr0'.shape, e0]
    rw [e1]
    dsimp only [List.drop]
    by_cases h2 : rest.any (fun s => s.shape ≠ [p, q, t, b, a]) = true
    · rw [if_pos h2]; exact ⟨_, rfl⟩
    rw [if_neg h2]
    by_cases h3 : size [y, x, b, a] ≠ (((ar0 :: rest).map fun s => s.data).flatten).length
    · rw [if_pos h3]; exact ⟨_, rfl⟩
    exfalso
    apply hf
    have hall : ∀ s ∈ sortBy dateOf ss, s.shape = [p, q, t, b, a] := by
      intro s hs'
      rw [hso] at hs'
      rcases List.mem_cons.1 hs' with rfl | hs'
      · exact e1
      · rw [Bool.not_eq_true, List.any_eq_false] at h2
        have := h2 s hs'
        simpa using this
    have hdata : ∀ d ∈ ((ar0 :: rest).map fun s => s.data), d.length = p * (q * (t * (b * a))) := by
      intro d hd
      obtain ⟨s, h4, rfl⟩ := List.mem_map.1 hd
      obtain ⟨r, h5, h6⟩ := hmem s (hso ▸ h4)
      rw [h6.data, (hl r h5).data, ← h6.shape, hall s (hso ▸ h4)]
      simp
    rw [ne_eq, Decidable.not_not, flatten_len _ _ hdata, List.length_map, ← hso, hp.length_eq] at h3
    rw [ne_eq, Decidable.not_not] at h1
    have hpos := (hl r0 hr0).positive
    rw [e0] at hpos
    simp only [List.mem_cons, List.not_mem_nil, or_false, not_or] at hpos
    have hn : 0 < ss.length := by rw [hlen]; exact List.length_pos_of_ne_nil hne
    have hba : 0 < b * a := Nat.mul_pos (Nat.pos_of_ne_zero (Ne.symm hpos.2.2.2.1)) (Nat.pos_of_ne_zero (Ne.symm hpos.2.2.2.2))
    have hpqt : p * q * t = 1 := by
      simp only [size] at h3
      have : ss.length * (b * a) * (p * q * t) = ss.length * (b * a) * 1 := by
        calc ss.length * (b * a) * (p * q * t) = ss.length * (p * (q * (t * (b * a)))) := by ring
          _ = y * (x * (b * (a * 1))) := h3.symm
          _ = x * y * (b * a) := by ring
          _ = _ := by rw [h1]; ring
      exact Nat.eq_of_mul_eq_mul_left (Nat.mul_pos hn hba) this
    have ht : t = 1 := Nat.eq_one_of_mul_eq_one_left hpqt
    have hpq : p * q = 1 := Nat.eq_one_of_mul_eq_one_right hpqt
    have hq : q = 1 := Nat.eq_one_of_mul_eq_one_left hpq
    have hp1 : p = 1 := Nat.eq_one_of_mul_eq_one_right hpq
    subst ht hq hp1
    refine ⟨y, x, b, a, hyx', by rw [Nat.mul_comm, h1, hlen], ?_⟩
    intro r hr
    obtain ⟨s, h4, h5⟩ := forall₂_mem h r hr
    rw [← h5.shape, hall s (hp.mem_iff.2 h4)]

end

/-! ### Groups -/

/-- The polarization as text. -/
def polText (s : Sig) : Text := match getKw "Polarization".toList s.original with
  | some (.str t) => t
  | _ => []

/-- The key of a polarization. -/
def enc (t : Text) : Option Text ⊕ ℚ := .inl (if t = [] then none else some t)

theorem enc_inj {t t' : Text} (h : enc t = enc t') : t = t' := by
  unfold enc at h
  have := Sum.inl.inj h
  split_ifs at this with h1 h2 h2
  · rw [h1, h2]
  · exact Option.some.inj this

theorem read_pol {utc : Utc} {r : Rec} {s : Sig} (h : IsRead utc r s) : polKey s = .ok (enc (polText s)) ∧ polText s = pol r := by
  have hp := h.pol
  unfold polKey polText pol
  rw [hp]
  cases r.polarization with
  | none => exact ⟨rfl, rfl⟩
  | some p => exact ⟨rfl, rfl⟩

theorem addGroup_mem {κ : Type} [DecidableEq κ] (k : κ) (s : Sig) (f : κ → List Sig) : ∀ ks : List κ, ks.Nodup → k ∈ ks →
    addGroup k s (ks.map fun k' => (k', f k')) = ks.map fun k' => (k', if k' = k then f k' ++ [s] else f k')
  | k' :: ks, hn, h => by
    rw [List.nodup_cons] at hn
    rw [List.map_cons, addGroup, List.map_cons]
    by_cases e : k' = k
    · subst e
      rw [if_pos rfl, if_pos rfl]
      congr 1
      apply List.map_congr_left
      intro x hx
      rw [if_neg]
      rintro rfl
      exact hn.1 hx
    · rw [if_neg e, if_neg e, addGroup_mem k s f ks hn.2]
      rcases List.mem_cons.1 h with h | h
      · exact absurd h.symm e
      · exact h

theorem addGroup_new {κ : Type} [DecidableEq κ] (k : κ) (s : Sig) : ∀ g : List (κ × List Sig), k ∉ g.map Prod.fst → addGroup k s g = g ++ [(k, [s])]
  | [], _ => rfl
  | (k', l) :: g, h => by
    simp only [List.map_cons, List.mem_cons, not_or] at h
    rw [addGroup, if_neg (Ne.symm h.1), addGroup_new k s g h.2]
    rfl

theorem groups_ok (ss : List Sig) (h : ∀ s ∈ ss, polKey s = .ok (enc (polText s))) : ∃ ps : List Text,
    ps.Pairwise (fun p q => (ss.map polText).idxOf p < (ss.map polText).idxOf q) ∧ (∀ p, p ∈ ps ↔ p ∈ ss.map polText) ∧
    groups ss = .ok (ps.map fun p => (enc p, ss.filter fun s => polText s = p)) := by
  induction ss using List.reverseRec with
  | nil => exact ⟨[], .nil, by simp, rfl⟩
  | append_singleton ss s ih =>
    obtain ⟨ps, h1, h2, h3⟩ := ih fun s hs => h s (by simp [hs])
    have hg : groups (ss ++ [s]) = .ok (addGroup (enc (polText s)) s (ps.map fun p => (enc p, ss.filter fun s => polText s = p))) := by
      unfold groups at h3 ⊢
      rw [List.foldlM_append, h3]
      simp only [bind, Except.bind]
      rw [List.foldlM_cons, h s (by simp)]
      rfl
    have hnd : ps.Nodup := h1.imp fun {a b} h e => by rw [e] at h; exact Nat.lt_irrefl _ h
    have hidx : ∀ p ∈ ps, ((ss ++ [s]).map polText).idxOf p = (ss.map polText).idxOf p := by
      intro p hp
      rw [List.map_append, List.idxOf_append_of_mem ((h2 p).1 hp)]
    by_cases hm : polText s ∈ ps
    · refine ⟨ps, ?_, ?_, ?_⟩
      · exact List.Pairwise.imp_of_mem (fun {a b} ha hb h => by rw [hidx a ha, hidx b hb]; exact h) h1
      · intro p
        rw [List.map_append, List.mem_append, ← h2]
        constructor
        · exact .inl
        · rintro (h | h)
          · exact h
          · simp at h; rw [h]; exact hm
      · rw [hg]
        congr 1
        have e1 : (ps.map fun p => (enc p, ss.filter fun s => polText s = p)) =
            (ps.map enc).map fun k => (k, ss.filter fun s => enc (polText s) = k) := by
          rw [List.map_map]
          apply List.map_congr_left
          intro p _
          simp only [Function.comp]
          congr 2
          funext s'
          rw [decide_eq_decide]
          exact ⟨fun h => by rw [h], fun h => enc_inj h⟩
        rw [e1, addGroup_mem _ _ _ _ (List.Nodup.map_on (fun a _ b _ h => enc_inj h) hnd) (List.mem_map_of_mem hm), List.map_map]
        apply List.map_congr_left
        intro p _
        simp only [Function.comp]
        rw [List.filter_append]
        have e2 : (ss.filter fun s' => enc (polText s') = enc p) = ss.filter fun s' => polText s' = p := by
          apply List.filter_congr
          intro s' _
          rw [decide_eq_decide]
          exact ⟨fun h => enc_inj h, fun h => by rw [h]⟩
        rw [e2]
        by_cases e : polText s = p
        · subst e
          simp
        · have : ¬ enc p = enc (polText s) := fun h => e (enc_inj h).symm
          simp [e, this]
    · have hm' : polText s ∉ ss.map polText := fun h => hm ((h2 _).2 h)
      refine ⟨ps ++ [polText s], ?_, ?_, ?_⟩
      · rw [List.pairwise_append]
        refine ⟨List.Pairwise.imp_of_mem (fun {a b} ha hb h => by rw [hidx a ha, hidx b hb]; exact h) h1, by simp, ?_⟩
        intro a ha b hb
        rw [List.mem_singleton] at hb
        subst hb
        rw [hidx a ha, List.map_append, List.idxOf_append_of_notMem hm']
        have := List.idxOf_lt_length_of_mem ((h2 a).1 ha)
        omega
      · intro p
        rw [List.map_append, List.mem_append, List.mem_append, ← h2]
        simp
      · rw [hg, addGroup_new]
        · congr 1
          rw [List.map_append]
          congr 1
          · apply List.map_congr_left
            intro p hp
            rw [List.filter_append]
            have : ¬ polText s = p := fun e => hm (e ▸ hp)
            simp [this]
          · have : ss.filter (fun s' => polText s' = polText s) = [] := by
              rw [List.filter_eq_nil_iff]
              intro s' hs' e
              rw [decide_eq_true_eq] at e
              exact hm' (e ▸ List.mem_map_of_mem hs')
            simp [List.filter_append, this]
        · intro hx
          rw [List.map_map] at hx
          obtain ⟨p, hp, e⟩ := List.mem_map.1 hx
          exact hm (enc_inj e ▸ hp)

end Verif.Delmic
