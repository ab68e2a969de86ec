import Verif.Lemmas.DelmicScan
/-!
Delmic HDF5 files.

C110: the signals are those asked for, type by type; each value is found where its dimensions say; pixels lie where the file says;
angle-resolved images become a scan in the order of time.

C111: type, title, date, polarization and the original metadata are those of the file.
-/
namespace Verif.Props.Delmic
open Verif Verif.Delmic Verif.Delmic.Spec

theorem forall₂_filter {α β : Type} {R : α → β → Prop} {p : α → Bool} {q : β → Bool} (h : ∀ a b, R a b → p a = q b) :
    ∀ {l : List α} {m : List β}, List.Forall₂ R l m → List.Forall₂ R (l.filter p) (m.filter q)
  | _, _, .nil => .nil
  | a :: l, b :: m, .cons h1 t => by
    have e := h a b h1
    rw [List.filter_cons, List.filter_cons, e]
    split_ifs
    · exact .cons h1 (forall₂_filter h t)
    · exact forall₂_filter h t

theorem mapM_rel {α β γ : Type} {R : α → β → Prop} {Q : α → γ → Prop} {f : β → Py γ} (h : ∀ a b, R a b → ∃ c, f b = .ok c ∧ Q a c) :
    ∀ {l : List α} {m : List β}, List.Forall₂ R l m → ∃ r, m.mapM f = .ok r ∧ List.Forall₂ Q l r
  | _, _, .nil => ⟨[], rfl, .nil⟩
  | _, _, .cons h1 t => by
    obtain ⟨c, h2, h3⟩ := h _ _ h1
    obtain ⟨r, h4, h5⟩ := mapM_rel h t
    exact ⟨c :: r, by rw [List.mapM_cons, h2, h4]; rfl, .cons h3 h5⟩

theorem mapM_flat {α β γ : Type} {G : α → List β} {Q : α → List γ → Prop} {f : β → Py γ} :
    ∀ {l : List α}, (∀ a ∈ l, ∃ c, (G a).mapM f = .ok c ∧ Q a c) → ∃ rs, (l.flatMap G).mapM f = .ok rs.flatten ∧ List.Forall₂ Q l rs
  | [], _ => ⟨[], rfl, .nil⟩
  | a :: l, h => by
    obtain ⟨c, h2, h3⟩ := h a (by simp)
    obtain ⟨r, h4, h5⟩ := mapM_flat (l := l) fun a ha => h a (by simp [ha])
    refine ⟨c :: r, ?_, .cons h3 h5⟩
    rw [List.flatMap_cons, List.mapM_append, h2, h4]
    rfl

theorem wanted_ok {signal : Text} (h : Word signal) : ∃ ws, wanted signal = .ok ws ∧ ∀ k, k ∈ ws ↔ Asks signal k := by
  have key : ∀ s ∈ ["all".toList, "cl".toList, "survey".toList, "se".toList, "anchor".toList], ∃ ws, wanted s = .ok ws ∧ ∀ k, k ∈ ws ↔ Asks s k := by
    intro s hs
    simp only [List.mem_cons, List.not_mem_nil, or_false] at hs
    rcases hs with rfl | rfl | rfl | rfl | rfl
    · refine ⟨kinds, rfl, fun k => ⟨fun _ => .inl rfl, fun _ => ?_⟩⟩
      cases k <;> decide
    · refine ⟨clKinds, rfl, fun k => ⟨fun h => .inr (.inl ⟨rfl, h⟩), ?_⟩⟩
      rintro (h | h | h)
      · exact absurd h (by decide)
      · exact h.2
      · exfalso; revert h; cases k <;> decide
    · refine ⟨[.survey], rfl, fun k => ⟨fun h => ?_, ?_⟩⟩
      · rw [List.mem_singleton] at h; subst h; exact .inr (.inr (by decide))
      · rintro (h | h | h)
        · exact absurd h (by decide)
        · exact absurd h.1 (by decide)
        · revert h; cases k <;> decide
    · refine ⟨[.se], rfl, fun k => ⟨fun h => ?_, ?_⟩⟩
      · rw [List.mem_singleton] at h; subst h; exact .inr (.inr (by decide))
      · rintro (h | h | h)
        · exact absurd h (by decide)
        · exact absurd h.1 (by decide)
        · revert h; cases k <;> decide
    · refine ⟨[.anchor], rfl, fun k => ⟨fun h => ?_, ?_⟩⟩
      · rw [List.mem_singleton] at h; subst h; exact .inr (.inr (by decide))
      · rintro (h | h | h)
        · exact absurd h (by decide)
        · exact absurd h.1 (by decide)
        · revert h; cases k <;> decide
  exact key signal h

theorem rank_inj {k k' : Kind} (h : kindRank k = kindRank k') : k = k' := by
  revert h; cases k <;> cases k' <;> decide

theorem result_imp {one one' : Rec → Sig → Prop} {scan scan' : List Rec → Rec → Sig → Prop} {signal : Text} {l : List Rec} {sigs : List Sig}
    (h1 : ∀ r s, one r s → one' r s) (h2 : ∀ g se s, scan g se s → scan' g se s) (h : Result one scan signal l sigs) :
    Result one' scan' signal l sigs := by
  refine ⟨h.order, fun k hk hn => (h.asked k hk hn).imp h1, fun ha se hse => ?_, h.only, h.none⟩
  obtain ⟨ps, outs, h3, h4, h5, h6⟩ := h.scans ha se hse
  refine ⟨ps, outs, h3, h4, h5, h6.imp fun p o ho => ⟨fun hf => ?_, fun hf => (ho.2 hf).imp h1⟩⟩
  obtain ⟨s, e, hs⟩ := ho.1 hf
  exact ⟨s, e, h2 _ _ _ hs⟩

/-- What is shown of one acquisition. -/
def One (utc : Utc) (r : Rec) (s : Sig) : Prop := Shows r s ∧ OneMeta utc r s

/-- What is shown of a scan. -/
def Scan (utc : Utc) (g : List Rec) (se : Rec) (s : Sig) : Prop :=
  (∀ y x b a, Fills g se y x b a → ShowsScan g se y x b a s) ∧ ScanMeta utc g s

theorem fills_unique {g : List Rec} {se : Rec} {y x b a y' x' b' a' : Nat} (hne : g ≠ []) (h : Fills g se y x b a) (h' : Fills g se y' x' b' a') :
    y = y' ∧ x = x' ∧ b = b' ∧ a = a' := by
  obtain ⟨r, hr⟩ := List.exists_mem_of_ne_nil g hne
  have e1 := h.1.symm.trans h'.1
  have e2 := (h.2.2 r hr).symm.trans (h'.2.2 r hr)
  simp only [List.cons.injEq, and_true, true_and] at e1 e2
  exact ⟨e1.1, e1.2, e2.1, e2.2⟩

theorem holds_sound {file : List Obj} {l : List Rec} (h : Holds file l) : ∀ r ∈ l, Sound r := by
  induction h with
  | nil => intro r hr; cases hr
  | other _ _ ih => exact ih
  | spoiled _ _ _ ih => exact ih
  | take _ _ _ h _ ih =>
    intro r hr
    rcases List.mem_cons.1 hr with rfl | hr
    · exact h
    · exact ih r hr

/-- One polarization. -/
theorem group_ok {utc : Utc} {g : List Rec} {ss : List Sig} {se : Rec} {sse : Sig} (h : List.Forall₂ (IsRead utc) g ss) (hl : ∀ r ∈ g, Sound r)
    (hk : ∀ r ∈ g, r.kind = .ar) (hne : g ≠ []) (hs : Sound se) (hg : se.acq.labels.drop 3 = [['Y'], ['X']]) (hse : IsRead utc se sse)
    (ht : (g.map Rec.time).Nodup) :
    ∃ o, (mergeGroup sse ss).mapM (fun s => reorder (squeeze s)) = .ok o ∧ (Group (One utc) (fun g => Scan utc g se) g se o ∧ ∀ s ∈ o, s.kind = .ar) := by
  by_cases hf : ∃ y x b a, Fills g se y x b a
  · obtain ⟨y, x, b, a, hf'⟩ := hf
    obtain ⟨m, s, h1, h2, h3, h4⟩ := scan_ok h hl hk hne hs hg hse ht hf'
    refine ⟨[s], ?_, ⟨fun _ => ⟨s, rfl, ?_, h4⟩, fun hn => absurd ⟨y, x, b, a, hf'⟩ hn⟩, ?_⟩
    · rw [mergeGroup, h1]
      dsimp only
      rw [List.mapM_cons, h2]
      rfl
    · intro y' x' b' a' hf''
      obtain ⟨rfl, rfl, rfl, rfl⟩ := fills_unique hne hf' hf''
      exact h3
    · intro s' hs'
      rw [List.mem_singleton] at hs'
      rw [hs']; exact h3.kind
  · obtain ⟨e, he⟩ := scan_not h hl hne hs hg hse hf
    have : mergeGroup sse ss = ss := by rw [mergeGroup, he]
    rw [this]
    have h' : List.Forall₂ (fun r s => IsRead utc r s ∧ r ∈ g) g ss := by
      have key : ∀ {g' : List Rec} {ss' : List Sig}, List.Forall₂ (IsRead utc) g' ss' → (∀ r ∈ g', r ∈ g) → List.Forall₂ (fun r s => IsRead utc r s ∧ r ∈ g) g' ss' := by
        intro g' ss' h
        induction h with
        | nil => exact fun _ => .nil
        | cons a _ ih => exact fun hm => .cons ⟨a, hm _ (by simp)⟩ (ih fun r hr => hm r (by simp [hr]))
      exact key h fun _ h => h
    obtain ⟨o, h1, h2⟩ := mapM_rel (Q := One utc) (f := fun s => reorder (squeeze s)) (fun r s hrs => one_ok (hl r hrs.2) hrs.1) h'
    refine ⟨o, h1, ⟨fun hn => absurd hn hf, fun _ => h2⟩, ?_⟩
    intro s hs'
    obtain ⟨r, hr, h3⟩ := forall₂_mem' h2 s hs'
    rw [h3.1.kind, hk r hr]

theorem read_all {utc : Utc} {signal : Text} {file : List Obj} {l : List Rec} (hw : Word signal) (h : Holds file l) (hs : Scannable l)
    (hne : ∃ r ∈ l, Asks signal r.kind) : ∃ sigs, Delmic.read utc signal false file = .ok sigs ∧ Result (One utc) (Scan utc) signal l sigs := by
  obtain ⟨ws, hws, hask⟩ := wanted_ok hw
  have hr := acquisitions_ok (utc := utc) h
  have hso := holds_sound h
  generalize hss : acquisitions utc file = ss at hr
  have hr' : List.Forall₂ (fun r s => IsRead utc r s ∧ r ∈ l) l ss := by
    have key : ∀ {g' : List Rec} {ss' : List Sig}, List.Forall₂ (IsRead utc) g' ss' → (∀ r ∈ g', r ∈ l) → List.Forall₂ (fun r s => IsRead utc r s ∧ r ∈ l) g' ss' := by
      intro g' ss' h
      induction h with
      | nil => exact fun _ => .nil
      | cons a _ ih => exact fun hm => .cons ⟨a, hm _ (by simp)⟩ (ih fun r hr => hm r (by simp [hr]))
    exact key hr fun _ h => h
  -- the others
  have hA : List.Forall₂ (fun r s => IsRead utc r s ∧ r ∈ l) (l.filter fun r => r.kind ∈ ws ∧ r.kind ≠ .ar) (ss.filter fun s => s.kind ∈ ws ∧ s.kind ≠ .ar) :=
    forall₂_filter (fun r s h => by rw [h.1.kind]) hr'
  obtain ⟨o1, ho1, hq1⟩ := mapM_rel (Q := One utc) (f := fun s => reorder (squeeze s)) (fun r s hrs => one_ok (hso r hrs.2) hrs.1) hA
  -- angle-resolved images
  have hAr : List.Forall₂ (IsRead utc) (l.filter fun r => r.kind = .ar) (ss.filter fun s => s.kind = .ar) :=
    forall₂_filter (fun r s h => by rw [h.kind]) hr
  have hSe : List.Forall₂ (fun r s => IsRead utc r s ∧ r ∈ l) (l.filter fun r => r.kind = .se) (ss.filter fun s => s.kind = .se) :=
    forall₂_filter (fun r s h => by rw [h.1.kind]) hr'
  have hlast : ∀ se, (l.filter fun r => r.kind = .se).getLast? = some se → ∃ sse, (ss.filter fun s => s.kind = .se).getLast? = some sse ∧ IsRead utc se sse ∧ se ∈ l := by
    have key : ∀ {a : List Rec} {b : List Sig}, List.Forall₂ (fun r s => IsRead utc r s ∧ r ∈ l) a b → ∀ se, a.getLast? = some se →
        ∃ sse, b.getLast? = some sse ∧ IsRead utc se sse ∧ se ∈ l := by
      intro a b h se he
      rw [List.getLast?_eq_getElem?] at he ⊢
      obtain ⟨hi, e⟩ := List.getElem?_eq_some_iff.1 he
      have hi' : a.length - 1 < b.length := by rw [← h.length_eq]; exact hi
      refine ⟨b[a.length - 1], by rw [← h.length_eq, List.getElem?_eq_getElem hi'], ?_⟩
      have := h.get (i := a.length - 1) hi hi'
      simp only [List.get_eq_getElem, e] at this
      exact this
    exact key hSe
  have hmerged : ∃ gs merged o2, groups (if Kind.ar ∈ ws then ss.filter fun s => s.kind = .ar else []) = .ok gs ∧
      mergeAll (ss.filter fun s => s.kind = .se).getLast? gs = .ok merged ∧ merged.mapM (fun s => reorder (squeeze s)) = .ok o2 ∧
      (∀ s ∈ o2, s.kind = .ar) ∧ (Kind.ar ∉ ws → o2 = []) ∧ ((∀ r ∈ l, r.kind ≠ .ar) → o2 = []) ∧
      (Kind.ar ∈ ws → (∃ r ∈ l, r.kind = .ar) → merged ≠ []) ∧
      (Kind.ar ∈ ws → ∀ se, (l.filter fun r => r.kind = .se).getLast? = some se →
        Groups (One utc) (fun g => Scan utc g se) (l.filter fun r => r.kind = .ar) se o2) := by
    by_cases ha : Kind.ar ∈ ws
    · rw [if_pos ha]
      have hpol : ∀ s ∈ ss.filter fun s => s.kind = .ar, polKey s = .ok (enc (polText s)) := by
        intro s hs'
        obtain ⟨r, -, h1⟩ := forall₂_mem' hAr s hs'
        exact (read_pol h1).1
      obtain ⟨ps, hp1, hp2, hp3⟩ := groups_ok _ hpol
      have hpt : (ss.filter fun s => s.kind = .ar).map polText = (l.filter fun r => r.kind = .ar).map pol :=
        forall₂_map_eq (f := pol) (g := polText) (R := IsRead utc) (fun _ _ h => (read_pol h).2) hAr
      rw [hpt] at hp1 hp2
      by_cases hno : ∃ r ∈ l, r.kind = .ar
      · obtain ⟨r1, hr1, hk1⟩ := hs.se hno
        have hne' : (l.filter fun r => r.kind = .se) ≠ [] := List.ne_nil_of_mem (a := r1) (by simp [hr1, hk1])
        obtain ⟨se, hse⟩ : ∃ se, (l.filter fun r => r.kind = .se).getLast? = some se := ⟨_, List.getLast?_eq_some_getLast hne'⟩
        obtain ⟨sse, h1, h2, h3⟩ := hlast se hse
        have hsek : se.kind = .se := by
          have := List.mem_of_getLast? hse
          simpa using (List.mem_filter.1 this).2
        have hone : ∀ p ∈ ps, ∃ o, (mergeGroup sse ((ss.filter fun s => s.kind = .ar).filter fun s => polText s = p)).mapM (fun s => reorder (squeeze s)) = .ok o ∧
            (Group (One utc) (fun g => Scan utc g se) ((l.filter fun r => r.kind = .ar).filter fun r => pol r = p) se o ∧ ∀ s ∈ o, s.kind = .ar) := by
          intro p hp
          apply group_ok
          · exact forall₂_filter (fun r s h => by rw [(read_pol h).2]) hAr
          · intro r hr
            exact hso r (List.mem_filter.1 (List.mem_filter.1 hr).1).1
          · intro r hr
            simpa using (List.mem_filter.1 (List.mem_filter.1 hr).1).2
          · obtain ⟨r, hr, e⟩ := List.mem_map.1 ((hp2 p).1 hp)
            exact List.ne_nil_of_mem (a := r) (by rw [List.mem_filter]; exact ⟨hr, by simp [e]⟩)
          · exact hso se h3
          · exact hs.grid se h3 hsek
          · exact h2
          · have := hs.times p
            rw [List.filter_filter]
            have e : (l.filter fun r => r.kind = .ar ∧ pol r = p) = l.filter fun a => decide (pol a = p) && decide (a.kind = .ar) := by
              apply List.filter_congr
              intro r _
              rw [Bool.decide_and, Bool.and_comm]
            rwa [e] at this
        obtain ⟨outs, ho2, hq2⟩ := mapM_flat hone
        obtain ⟨r2, hr2, hk2⟩ := hno
        have hpne : ps ≠ [] := List.ne_nil_of_mem (a := pol r2) ((hp2 _).2 (List.mem_map_of_mem (by simp [hr2, hk2])))
        have hgs : mergeAll (some sse) (ps.map fun p => (enc p, (ss.filter fun s => s.kind = .ar).filter fun s => polText s = p)) =
            .ok (ps.flatMap fun p => mergeGroup sse ((ss.filter fun s => s.kind = .ar).filter fun s => polText s = p)) := by
          cases ps with
          | nil => exact absurd rfl hpne
          | cons p ps =>
            rw [List.map_cons, mergeAll, List.flatMap_cons, List.flatMap_cons, List.flatMap_map]
        refine ⟨_, _, outs.flatten, hp3, by rw [h1]; exact hgs, ho2, ?_, fun h => absurd ha h, fun h => absurd hk2 (h r2 hr2), ?_, ?_⟩
        · intro s hs'
          obtain ⟨o, h4, h5⟩ := List.mem_flatten.1 hs'
          obtain ⟨p, -, h6⟩ := forall₂_mem' hq2 o h4
          exact h6.2 s h5
        · intro _ _ hnil
          rw [List.flatMap_eq_nil_iff] at hnil
          obtain ⟨p, hp⟩ := List.exists_mem_of_ne_nil ps hpne
          have h4 := hnil p hp
          obtain ⟨r, hr, e⟩ := List.mem_map.1 ((hp2 p).1 hp)
          obtain ⟨s, hs1, hs2⟩ := forall₂_mem hAr r hr
          have h5 : s ∈ (ss.filter fun s => s.kind = .ar).filter fun s => polText s = p := by
            rw [List.mem_filter]
            exact ⟨hs1, by rw [(read_pol hs2).2, e]; simp⟩
          unfold mergeGroup at h4
          split at h4
          · cases h4
          · rw [h4] at h5; cases h5
        · intro _ se' hse'
          rw [hse] at hse'
          cases hse'
          exact ⟨ps, outs, hp1, hp2, rfl, hq2.imp fun p o h => h.1⟩
      · have hnil : (l.filter fun r => r.kind = .ar) = [] := by
          rw [List.filter_eq_nil_iff]
          intro r hr h
          rw [decide_eq_true_eq] at h
          exact hno ⟨r, hr, h⟩
        have hnil' : (ss.filter fun s => s.kind = .ar) = [] := by
          rw [hnil] at hAr
          exact List.forall₂_nil_left_iff.1 hAr
        rw [hnil']
        refine ⟨[], [], [], rfl, rfl, rfl, by simp, fun _ => rfl, fun _ => rfl, fun _ h => absurd h hno, ?_⟩
        intro _ se _
        rw [hnil]
        exact ⟨[], [], .nil, by simp, rfl, .nil⟩
    · rw [if_neg ha]
      exact ⟨[], [], [], rfl, rfl, rfl, by simp, fun _ => rfl, fun _ => rfl, fun h => absurd h ha, fun h => absurd h ha⟩
  obtain ⟨gs, merged, o2, hgs, hmg, ho2, hk2, hn2, hz2, hne2, hgr⟩ := hmerged
  have hfound : (ss.filter fun s => s.kind ∈ ws ∧ s.kind ≠ .ar) ++ merged ≠ [] := by
    obtain ⟨r, hr1, hr2⟩ := hne
    have hrw := (hask r.kind).2 hr2
    by_cases hk : r.kind = .ar
    · rw [hk] at hrw
      intro e
      exact hne2 hrw ⟨r, hr1, hk⟩ (List.append_eq_nil_iff.1 e).2
    · intro e
      have h1 := (List.append_eq_nil_iff.1 e).1
      have h2 : r ∈ l.filter fun r => r.kind ∈ ws ∧ r.kind ≠ .ar := by
        rw [List.mem_filter]
        exact ⟨hr1, by simp [hrw, hk]⟩
      obtain ⟨s, hs1, -⟩ := forall₂_mem hA r h2
      rw [h1] at hs1; cases hs1
  refine ⟨sortBy (fun s => kindRank s.kind) (o1 ++ o2), ?_, ?_⟩
  · unfold Delmic.read
    rw [if_neg (by simp), hws]
    simp only [bind, Except.bind]
    rw [hss, hgs]
    dsimp only
    rw [hmg]
    dsimp only
    rw [if_neg hfound, List.mapM_append, ho1, ho2]
    rfl
  · have hfil : ∀ k, (sortBy (fun s => kindRank s.kind) (o1 ++ o2)).filter (fun s => s.kind = k) = o1.filter (fun s => s.kind = k) ++ o2.filter fun s => s.kind = k := by
      intro k
      have e : ∀ m : List Sig, m.filter (fun s => s.kind = k) = m.filter fun s => kindRank s.kind = kindRank k := by
        intro m
        apply List.filter_congr
        intro s _
        rw [decide_eq_decide]
        exact ⟨fun h => by rw [h], rank_inj⟩
      rw [e, sortBy_filter (fun s : Sig => kindRank s.kind), ← e, List.filter_append]
    have h1k : ∀ s ∈ o1, s.kind ∈ ws ∧ s.kind ≠ .ar := by
      intro s hs'
      obtain ⟨r, hr1, hr2⟩ := forall₂_mem' hq1 s hs'
      rw [hr2.1.kind]
      have := (List.mem_filter.1 hr1).2
      simpa using this
    have h2n : ∀ k, k ≠ .ar → o2.filter (fun s => s.kind = k) = [] := by
      intro k hk
      rw [List.filter_eq_nil_iff]
      intro s hs' e
      rw [decide_eq_true_eq, hk2 s hs'] at e
      exact hk e.symm
    have h1n : o1.filter (fun s => s.kind = .ar) = [] := by
      rw [List.filter_eq_nil_iff]
      intro s hs' e
      rw [decide_eq_true_eq] at e
      exact (h1k s hs').2 e
    have h2a : o2.filter (fun s => s.kind = .ar) = o2 := by
      rw [List.filter_eq_self]
      intro s hs'
      simp [hk2 s hs']
    refine ⟨?_, ?_, ?_, ?_, ?_⟩
    · exact sortBy_sorted (fun s : Sig => kindRank s.kind) _
    · intro k hk hka
      rw [hfil, h2n k hka, List.append_nil]
      have := forall₂_filter (p := fun r : Rec => decide (r.kind = k)) (q := fun s : Sig => decide (s.kind = k))
        (fun r s h => by rw [h.1.kind]) hq1
      rw [List.filter_filter] at this
      have e : (l.filter fun r => r.kind = k) = l.filter fun a => decide (a.kind = k) && decide (a.kind ∈ ws ∧ a.kind ≠ .ar) := by
        apply List.filter_congr
        intro r _
        by_cases h : r.kind = k
        · simp [h, (hask k).2 hk, hka]
        · simp [h]
      rw [e]
      exact this
    · intro hk se hse
      rw [hfil, h1n, h2a, List.nil_append]
      exact hgr ((hask _).2 hk) se hse
    · intro k hk
      rw [hfil]
      have hk' : k ∉ ws := fun h => hk ((hask k).1 h)
      have : o1.filter (fun s => s.kind = k) = [] := by
        rw [List.filter_eq_nil_iff]
        intro s hs' e
        rw [decide_eq_true_eq] at e
        exact hk' (e ▸ (h1k s hs').1)
      rw [this, List.nil_append]
      by_cases hka : k = .ar
      · subst hka
        rw [hn2 hk']; rfl
      · exact h2n k hka
    · intro hno
      rw [hfil, h1n, hz2 hno]
      rfl

/-- C110: the signals of a file are the acquisitions asked for, type by type and in the order of the file; each value is found at the
place its dimensions say, each pixel lies where the file says, and angle-resolved images are placed on the pixels of the SEM image in
the order of time. -/
theorem C110_signals {utc : Utc} {signal : Text} {file : List Obj} {l : List Rec} (hw : Word signal) (h : Holds file l) (hs : Scannable l)
    (hne : ∃ r ∈ l, Asks signal r.kind) : ∃ sigs, Delmic.read utc signal false file = .ok sigs ∧
      Result Shows (fun g se s => ∀ y x b a, Fills g se y x b a → ShowsScan g se y x b a s) signal l sigs := by
  obtain ⟨sigs, h1, h2⟩ := read_all (utc := utc) hw h hs hne
  exact ⟨sigs, h1, result_imp (fun _ _ h => h.1) (fun _ _ _ h => h.1) h2⟩

/-- C111: each signal has the type, title, date and polarization of its acquisition, and all its valid entries; a scan those of its
first image. -/
theorem C111_metadata {utc : Utc} {signal : Text} {file : List Obj} {l : List Rec} (hw : Word signal) (h : Holds file l) (hs : Scannable l)
    (hne : ∃ r ∈ l, Asks signal r.kind) : ∃ sigs, Delmic.read utc signal false file = .ok sigs ∧
      Result (OneMeta utc) (fun g _ s => ScanMeta utc g s) signal l sigs := by
  obtain ⟨sigs, h1, h2⟩ := read_all (utc := utc) hw h hs hne
  exact ⟨sigs, h1, result_imp (fun _ _ h => h.2) (fun _ _ _ h => h.2) h2⟩

/-- C110: reading later is not offered, other words are rejected, and a file without anything asked for is no file of this kind. -/
theorem C110_rejects {utc : Utc} {signal : Text} {file : List Obj} {l : List Rec} :
    Delmic.read utc signal true file = .error .notImplemented ∧ (¬ Word signal → Delmic.read utc signal false file = .error .valueError) ∧
    (Word signal → Holds file l → (∀ r ∈ l, ¬ Asks signal r.kind) → Delmic.read utc signal false file = .error .ioError) := by
  refine ⟨rfl, ?_, ?_⟩
  · intro h
    have hw : wanted signal = .error .valueError := by
      unfold Word at h
      simp only [List.mem_cons, List.not_mem_nil, or_false, not_or] at h
      unfold wanted
      rw [if_neg h.1, if_neg h.2.1, if_neg h.2.2.1, if_neg h.2.2.2.1, if_neg h.2.2.2.2]
    unfold Delmic.read
    rw [if_neg (by simp), hw]
    rfl
  · intro hw h hno
    obtain ⟨ws, hws, hask⟩ := wanted_ok hw
    have hr := acquisitions_ok (utc := utc) h
    have hs : ∀ s ∈ acquisitions utc file, s.kind ∉ ws := by
      intro s hs hk
      obtain ⟨r, hr1, hr2⟩ := forall₂_mem' hr s hs
      rw [hr2.kind] at hk
      exact hno r hr1 ((hask _).1 hk)
    have h1 : ((acquisitions utc file).filter fun s => s.kind ∈ ws ∧ s.kind ≠ .ar) = [] := by
      rw [List.filter_eq_nil_iff]
      intro s hs' e
      rw [decide_eq_true_eq] at e
      exact hs s hs' e.1
    have h2 : (if Kind.ar ∈ ws then (acquisitions utc file).filter fun s => s.kind = .ar else []) = [] := by
      split_ifs with ha
      · rw [List.filter_eq_nil_iff]
        intro s hs' e
        rw [decide_eq_true_eq] at e
        exact hs s hs' (e ▸ ha)
      · rfl
    unfold Delmic.read
    rw [if_neg (by simp), hws]
    simp only [bind, Except.bind]
    rw [h2, h1]
    rfl

/-! ### A file -/

/-- An entry. -/
def item (v : V) : Item := ⟨true, .list [112], some v⟩

/-- A spectrum image of three wavelengths and two pixels. -/
def spectrum : Acq where
  name := "/Acquisition0".toList
  isDataset := true
  labels := [['C'], ['T'], ['Z'], ['Y'], ['X']]
  shape := [3, 1, 1, 1, 2]
  data := [10, 11, 20, 21, 30, 31]
  image := [("DimensionScaleC".toList, [400 / 1000000000, 500 / 1000000000, 600 / 1000000000]), ("DimensionScaleX".toList, [2 / 1000000]),
    ("XOffset".toList, [5 / 1000000]), ("TOffset".toList, [1500])]
  physical := [("ChannelDescription".toList, item (.str "Spectrum".toList)), ("Exposure".toList, ⟨true, .list [111], some (.num 1)⟩)]
  title := some (some "Spectrum".toList)
  svi := [("Company".toList, "Delmic".toList)]

/-- The SEM image: one line of two pixels. -/
def sem : Acq where
  name := "/Acquisition1".toList
  isDataset := true
  labels := [['C'], ['T'], ['Z'], ['Y'], ['X']]
  shape := [1, 1, 1, 1, 2]
  data := [7, 8]
  image := [("DimensionScaleX".toList, [2 / 1000000]), ("XOffset".toList, [5 / 1000000]), ("TOffset".toList, [1400])]
  physical := [("ChannelDescription".toList, item (.str "Secondary electrons concurrent".toList))]
  title := some (some "SEM".toList)
  svi := []

/-- An angle-resolved image. -/
def arImage (name : Text) (time : ℚ) (data : List Nat) : Acq where
  name := name
  isDataset := true
  labels := [['C'], ['T'], ['Z'], ['Y'], ['X']]
  shape := [1, 1, 1, 2, 2]
  data := data
  image := [("TOffset".toList, [time])]
  physical := [("ChannelDescription".toList, item (.str "Angle-resolved".toList)), ("PolePosition".toList, item (.list [.num 3, .num 4]))]
  title := some none
  svi := []

/-- The objects: the later image comes first. -/
def file : List Obj :=
  [⟨"Acquisition0".toList, true, some spectrum⟩, ⟨"Acquisition1".toList, true, some sem⟩,
   ⟨"Acquisition2".toList, true, some (arImage "/Acquisition2".toList 20 [5, 6, 7, 8])⟩,
   ⟨"Acquisition3".toList, true, some (arImage "/Acquisition3".toList 10 [1, 2, 3, 4])⟩,
   ⟨"Acquisition4".toList, true, some { sem with title := none }⟩, ⟨"Preview".toList, true, none⟩]

/-- What the file holds. -/
def recs : List Rec :=
  [⟨spectrum, .spectrum, "Spectrum".toList, none, 1500⟩, ⟨sem, .se, "SEM".toList, none, 1400⟩,
   ⟨arImage "/Acquisition2".toList 20 [5, 6, 7, 8], .ar, "__unnamed__".toList, none, 20⟩,
   ⟨arImage "/Acquisition3".toList 10 [1, 2, 3, 4], .ar, "__unnamed__".toList, none, 10⟩]

theorem no_entry {a : Acq} {k : Text} (h : k ∉ a.physical.map Prod.fst) (v : V) : ¬ Entry a k v := by
  rintro ⟨n, ns, hm, -⟩
  exact h (List.mem_map.2 ⟨_, hm, rfl⟩)

theorem states_ok {a : Acq} (h : a.physical.all fun e => match e.2.state with | .list (_ :: _) => true | _ => false) :
    ∀ e ∈ a.physical, e.2.dataset = true → e.1 ≠ "Title".toList → ∃ n ns, e.2.state = .list (n :: ns) := by
  intro e he _ _
  have := List.all_eq_true.1 h e he
  split at this
  · exact ⟨_, _, by assumption⟩
  · cases this

theorem ar_sound (name : Text) (time : ℚ) (d : List Nat) (hd : d.length = 4) : Sound ⟨arImage name time d, .ar, "__unnamed__".toList, none, time⟩ where
  dataset := rfl
  labels := rfl
  distinct := by show ([['C'], ['T'], ['Z'], ['Y'], ['X']] : List Text).Nodup; decide
  names := by show ∀ t ∈ ["Wavelength".toList, "Time".toList, "Angle".toList], t ∉ ([['C'], ['T'], ['Z'], ['Y'], ['X']] : List Text); decide
  shape := rfl
  positive := by show (0 : Nat) ∉ [1, 1, 1, 2, 2]; decide
  data := by rw [show (arImage name time d).data = d from rfl, hd]; rfl
  image := by show (["TOffset".toList] : List Text).Nodup; decide
  physical := by show (["ChannelDescription".toList, "PolePosition".toList] : List Text).Nodup; decide
  states := states_ok rfl
  title := .inr ⟨rfl, rfl⟩
  kind := ⟨_, ⟨112, [], List.mem_cons_self .., by decide⟩, by
    show _ ∧ _
    exact ⟨by decide, rfl, rfl, rfl, _, 112, [], List.mem_cons_of_mem _ (List.mem_cons_self ..), by decide⟩⟩
  time := List.mem_cons_self ..
  polarization := no_entry (by show "Polarization".toList ∉ ["ChannelDescription".toList, "PolePosition".toList]; decide)

theorem file_holds : Holds file recs := by
  refine .take rfl (by decide) rfl ?_ (.take rfl (by decide) rfl ?_ (.take rfl (by decide) rfl (ar_sound _ _ _ rfl)
    (.take rfl (by decide) rfl (ar_sound _ _ _ rfl) (.spoiled rfl (.title rfl) (.other (.inr (.inr rfl)) .nil)))))
  · exact { dataset := rfl, labels := rfl, distinct := by decide, names := by decide, shape := rfl, positive := by decide, data := rfl, image := by decide, physical := by decide, states := states_ok rfl, title := .inl rfl, kind := ⟨_, ⟨112, [], List.mem_cons_self .., by decide⟩, by
              show _ ∧ _
              exact ⟨by decide, by decide, by decide, by decide⟩⟩, time := by decide, polarization := no_entry (by decide) }
  · exact { dataset := rfl, labels := rfl, distinct := by decide, names := by decide, shape := rfl, positive := by decide, data := rfl, image := by decide, physical := by decide, states := states_ok rfl, title := .inl rfl, kind := ⟨_, ⟨112, [], List.mem_cons_self .., by decide⟩, by
              show _ ∧ _
              exact ⟨by decide, by decide, by decide, by decide, fun l => no_entry (by decide) _, by decide⟩⟩, time := by decide, polarization := no_entry (by decide) }

theorem file_scannable : Scannable recs where
  grid := by
    intro r hr hk
    simp only [recs, List.mem_cons, List.not_mem_nil, or_false] at hr
    rcases hr with rfl | rfl | rfl | rfl <;> first | rfl | cases hk
  times := by
    intro p
    by_cases h : p = []
    · subst h
      decide +kernel
    · have : (recs.filter fun r => r.kind = .ar ∧ pol r = p) = [] := by
        rw [List.filter_eq_nil_iff]
        intro r hr e
        rw [decide_eq_true_eq] at e
        simp only [recs, List.mem_cons, List.not_mem_nil, or_false] at hr
        rcases hr with rfl | rfl | rfl | rfl <;> exact h e.2.symm
      rw [this]
      exact .nil
  se := fun _ => ⟨⟨sem, .se, "SEM".toList, none, 1400⟩, List.mem_cons_of_mem _ (List.mem_cons_self ..), rfl⟩

/-- The hypotheses of C110 and C111 hold for a file with a spectrum image, a SEM image and two angle-resolved images. -/
example : Word "cl".toList ∧ Holds file recs ∧ Scannable recs ∧ ∃ r ∈ recs, Asks "cl".toList r.kind :=
  ⟨by unfold Word; decide, file_holds, file_scannable, ⟨spectrum, .spectrum, "Spectrum".toList, none, 1500⟩, List.mem_cons_self .., .inr (.inl ⟨rfl, by decide⟩)⟩

/-- What can be compared of a signal. -/
def view (s : Sig) : Kind × List Nat × List Nat × List Axis := (s.kind, s.shape, s.data, s.axes)

/-- The scan comes first, in the order of time; wavelengths are the last dimension, in nanometres. -/
example : (Delmic.read (fun _ => none) "cl".toList false file).toOption.map (List.map view) = some
    [(.ar, [2, 2, 2], [1, 2, 3, 4, 5, 6, 7, 8], [⟨['X'], .line 2 4 2 ['µ', 'm']⟩, ⟨"Angle B".toList, .values [0, 1] []⟩, ⟨"Angle A".toList, .values [0, 1] []⟩]),
     (.spectrum, [2, 3], [10, 20, 30, 11, 21, 31], [⟨['X'], .line 2 4 2 ['µ', 'm']⟩, ⟨"Wavelength".toList, .values [400, 500, 600] ['n', 'm']⟩])] := by
  decide +kernel

/-! ### What does not hold -/

/-- Angle-resolved images without a SEM image are not passed on as they are, as the comment in the code says: the keys of the
dictionary take the place of the images, and the file cannot be read. -/
theorem C110_scan_fails_sem : Delmic.read (fun _ => none) "cl".toList false
    [⟨"Acquisition0".toList, true, some spectrum⟩, ⟨"Acquisition2".toList, true, some (arImage "/Acquisition2".toList 20 [5, 6, 7, 8])⟩] = .error .typeError := by
  rfl

/-- An entry without the attribute "State", for which a default is documented, loses its acquisition: the exception that is caught is not the
one that is raised. -/
theorem C110_state_fails_missing : (Delmic.read (fun _ => none) "all".toList false
    [⟨"Acquisition0".toList, true, some spectrum⟩,
     ⟨"Acquisition1".toList, true, some { sem with physical := ("Gain".toList, ⟨true, .absent, some (.num 1)⟩) :: sem.physical }⟩]).toOption.map (List.map fun s => s.kind) =
    some [.spectrum] := by
  decide +kernel

/-- A pixel size without a position is lost. -/
theorem C110_axis_fails_offset : makeAxis [("DimensionScaleX".toList, [2 / 1000000])] ['X'] 4 = ⟨['X'], .none⟩ := by
  decide +kernel

/-- Two dimensions without a label make the whole file unreadable, if the dimensions have to be sorted. -/
theorem C110_labels_fails_repeated : (Delmic.read (fun _ => none) "all".toList false
    [⟨"Acquisition0".toList, true, some spectrum⟩,
     ⟨"Acquisition1".toList, true, some { spectrum with labels := [['C'], [], [], ['Y'], ['X']], shape := [1, 2, 2, 1, 2], data := [1, 2, 3, 4, 5, 6, 7, 8] }⟩]).toOption.isNone = true := by
  decide +kernel

end Verif.Props.Delmic
