import Verif.Model.Fei
import Verif.Spec.Fei
/-! Helper lemmas for the FEI stream readers. -/
namespace Verif.Fei
open Verif.FeiSpec

/-- Events with the number of the pixel they belong to, the first pixel being `P`. -/
def events : Nat → List Nat → List (Nat × Nat)
  | _, [] => []
  | P, v :: vs => if v = marker then events (P + 1) vs else (P, v) :: events P vs

theorem events_ge : ∀ (vs : List Nat) (P : Nat) (q : Nat × Nat), q ∈ events P vs → P ≤ q.1
  | [], _, _, h => by simp [events] at h
  | v :: vs, P, q, h => by
    unfold events at h
    split at h
    · have := events_ge vs (P + 1) q h; omega
    · rcases List.mem_cons.1 h with h | h
      · subst h; simp
      · exact events_ge vs P q h

theorem pixels_ne_nil (vs : List Nat) : pixels vs ≠ [] := by
  cases vs with
  | nil => simp [pixels]
  | cons v vs =>
    unfold pixels
    split
    · simp
    · split <;> simp

theorem pixel_eq : ∀ (vs : List Nat) (P p : Nat), P ≤ p →
    (pixels vs)[p - P]?.getD [] = ((events P vs).filter (fun q => decide (q.1 = p))).map Prod.snd
  | [], P, p, h => by
    simp only [pixels, events]
    cases p - P <;> simp
  | v :: vs, P, p, h => by
    unfold pixels events
    by_cases hv : v = 65535
    · simp only [hv, marker, if_true]
      by_cases hp : p = P
      · subst hp
        simp only [Nat.sub_self, List.getElem?_cons_zero, Option.getD_some]
        symm
        rw [List.map_eq_nil_iff, List.filter_eq_nil_iff]
        intro q hq
        have := events_ge vs (p + 1) q hq
        simp; omega
      · have : p - P = (p - (P + 1)) + 1 := by omega
        rw [this, List.getElem?_cons_succ]
        exact pixel_eq vs (P + 1) p (by omega)
    · simp only [hv, marker, if_false]
      have ih := pixel_eq vs P p h
      obtain ⟨q, qs, hq⟩ : ∃ q qs, pixels vs = q :: qs := by
        cases hh : pixels vs with
        | nil => exact absurd hh (pixels_ne_nil vs)
        | cons q qs => exact ⟨q, qs, rfl⟩
      rw [hq] at ih ⊢
      simp only
      by_cases hp : p = P
      · subst hp
        simp only [Nat.sub_self, List.getElem?_cons_zero, Option.getD_some] at ih ⊢
        rw [List.filter_cons_of_pos (by simp), List.map_cons, ih]
      · have : p - P = (p - P - 1) + 1 := by omega
        rw [this, List.getElem?_cons_succ] at ih ⊢
        rw [List.filter_cons_of_neg (by simp; omega), ih]

/-- Events of the selected frames. -/
def sel (S first last : Nat) (es : List (Nat × Nat)) : List (Nat × Nat) :=
  es.filter fun q => decide (first * S ≤ q.1 ∧ q.1 < last * S)

theorem sel_nil_of_ge {S first last P : Nat} (h : last * S ≤ P) (vs : List Nat) :
    sel S first last (events P vs) = [] := by
  unfold sel
  rw [List.filter_eq_nil_iff]
  intro q hq
  have := events_ge vs P q hq
  simp; omega

/-- Value of `frame`, `nav` after the frame-end test. -/
theorem pos_wrap {S nav frame : Nat} (_h : nav ≤ S) :
    (if nav = S then frame + 1 else frame) * S + (if nav = S then 0 else nav) = frame * S + nav := by
  split
  · subst_vars; rw [Nat.succ_mul]; omega
  · rfl

theorem mul_add_lt_iff {S f g n : Nat} (hn : n < S) : f * S + n < g * S ↔ f < g := by
  constructor
  · intro h
    by_cases hfg : f < g
    · exact hfg
    · have : g * S ≤ f * S := Nat.mul_le_mul_right S (by omega)
      omega
  · intro h
    have : (f + 1) * S ≤ g * S := Nat.mul_le_mul_right S (by omega)
    rw [Nat.succ_mul] at this
    omega

theorem mul_le_mul_add_iff {S f g n : Nat} (hn : n < S) : g * S ≤ f * S + n ↔ g ≤ f := by
  have := mul_add_lt_iff (f := f) (g := g) hn
  omega

/-- The action of one event on the frame-resolved array. -/
def act4 (m S first rebin : Nat) (a : Img4) (q : Nat × Nat) : Py Img4 :=
  a.incr m (q.1 / S - first) (q.1 % S / a.nx) (q.1 % S % a.nx) (q.2 / rebin)

def act3 (m S rebin : Nat) (a : Img3) (q : Nat × Nat) : Py Img3 :=
  a.incr m (q.1 % S / a.nx) (q.1 % S % a.nx) (q.2 / rebin)

def Img4.bump (m : Nat) (a : Img4) (f y x c : Nat) : Img4 :=
  { a with val := fun f' y' x' c' =>
      if f' = f ∧ y' = y ∧ x' = x ∧ c' = c then (a.val f y x c + 1) % m else a.val f' y' x' c' }

def Img3.bump (m : Nat) (a : Img3) (y x c : Nat) : Img3 :=
  { a with val := fun y' x' c' =>
      if y' = y ∧ x' = x ∧ c' = c then (a.val y x c + 1) % m else a.val y' x' c' }

theorem Img4.incr_shape {m : Nat} {a a' : Img4} {f y x c : Nat} (h : a.incr m f y x c = .ok a') :
    a'.nf = a.nf ∧ a'.ny = a.ny ∧ a'.nx = a.nx ∧ a'.nc = a.nc := by
  unfold Img4.incr at h
  split at h
  · cases h; simp
  · cases h

theorem Img3.incr_shape {m : Nat} {a a' : Img3} {y x c : Nat} (h : a.incr m y x c = .ok a') :
    a'.ny = a.ny ∧ a'.nx = a.nx ∧ a'.nc = a.nc := by
  unfold Img3.incr at h
  split at h
  · cases h; simp
  · cases h

theorem fillFrames_eq {m first last rebin S : Nat} (hr : 0 < rebin) :
    ∀ (vs : List Nat) (nav frame : Nat) (a : Img4), S = a.ny * a.nx → 0 < S → nav ≤ S →
      frame < last →
      fillFrames m first last rebin vs nav frame a =
        (sel S first last (events (frame * S + nav) vs)).foldlM (act4 m S first rebin) a
  | [], nav, frame, a, hS, hS0, hn, hf => by
    simp [fillFrames, events, sel]; rfl
  | v :: vs, nav, frame, a, hS, hS0, hn, hf => by
    have hnx : a.nx ≠ 0 := by intro h; rw [h] at hS; omega
    unfold fillFrames
    simp only
    rw [← hS]
    by_cases hstop : nav = S ∧ frame + 1 = last
    · obtain ⟨h1, h2⟩ := hstop
      rw [if_pos (by simp [h1, h2])]
      rw [sel_nil_of_ge]
      · rfl
      · subst h1 h2; rw [Nat.succ_mul]; omega
    · rw [if_neg (by intro h; obtain ⟨h1, h2⟩ := h; rw [if_pos h1] at h2; exact hstop ⟨h1, h2⟩)]
      have hpos := pos_wrap (S := S) (frame := frame) hn
      have hnav' : (if nav = S then 0 else nav) < S := by split <;> omega
      have hfr' : (if nav = S then frame + 1 else frame) < last := by
        split <;> omega
      rw [← hpos]
      generalize (if nav = S then 0 else nav) = nav' at *
      generalize (if nav = S then frame + 1 else frame) = frame' at *
      by_cases hv : v = marker
      · rw [if_neg (by simpa using hv)]
        rw [fillFrames_eq hr vs (nav' + 1) frame' a hS hS0 (by omega) hfr']
        rw [events, if_pos hv]
        rfl
      · rw [if_pos (by simpa using hv), events, if_neg hv]
        by_cases hff : first ≤ frame'
        · rw [if_pos hff, if_neg (by omega)]
          have hsel : sel S first last ((frame' * S + nav', v) :: events (frame' * S + nav') vs) =
              (frame' * S + nav', v) :: sel S first last (events (frame' * S + nav') vs) := by
            unfold sel
            rw [List.filter_cons_of_pos]
            simp only [decide_eq_true_eq]
            exact ⟨(mul_le_mul_add_iff hnav').2 hff, (mul_add_lt_iff hnav').2 hfr'⟩
          rw [hsel, List.foldlM_cons]
          have hact : act4 m S first rebin a (frame' * S + nav', v) =
              a.incr m (frame' - first) (nav' / a.nx) (nav' % a.nx) (v / rebin) := by
            unfold act4
            have h1 : (frame' * S + nav') / S = frame' := by
              rw [Nat.mul_comm, Nat.mul_add_div hS0, Nat.div_eq_of_lt hnav']; omega
            have h2 : (frame' * S + nav') % S = nav' := by
              rw [Nat.mul_comm, Nat.mul_add_mod, Nat.mod_eq_of_lt hnav']
            rw [h1, h2]
          rw [hact]
          cases h : a.incr m (frame' - first) (nav' / a.nx) (nav' % a.nx) (v / rebin) with
          | error e => rfl
          | ok a' =>
            have hs := Img4.incr_shape h
            have := fillFrames_eq (m := m) (first := first) (last := last) hr vs nav' frame' a'
              (by rw [hs.2.1, hs.2.2.1]; exact hS) hS0 (by omega) hfr'
            simp only [this]
            rfl
        · rw [if_neg hff, fillFrames_eq hr vs nav' frame' a hS hS0 (by omega) hfr']
          congr 1
          unfold sel
          rw [List.filter_cons_of_neg]
          simp only [decide_eq_true_eq]
          intro h
          exact hff ((mul_le_mul_add_iff hnav').1 h.1)

theorem fillSum_eq {m first last rebin S : Nat} (hr : 0 < rebin) :
    ∀ (vs : List Nat) (nav frame : Nat) (a : Img3), S = a.ny * a.nx → 0 < S → nav ≤ S →
      frame < last →
      fillSum m first last rebin vs nav frame a =
        (sel S first last (events (frame * S + nav) vs)).foldlM (act3 m S rebin) a
  | [], nav, frame, a, hS, hS0, hn, hf => by
    simp [fillSum, events, sel]; rfl
  | v :: vs, nav, frame, a, hS, hS0, hn, hf => by
    have hnx : a.nx ≠ 0 := by intro h; rw [h] at hS; omega
    unfold fillSum
    simp only
    rw [← hS]
    by_cases hstop : nav = S ∧ frame + 1 = last
    · obtain ⟨h1, h2⟩ := hstop
      rw [if_pos (by simp [h1, h2])]
      rw [sel_nil_of_ge]
      · rfl
      · subst h1 h2; rw [Nat.succ_mul]; omega
    · rw [if_neg (by intro h; obtain ⟨h1, h2⟩ := h; rw [if_pos h1] at h2; exact hstop ⟨h1, h2⟩)]
      have hpos := pos_wrap (S := S) (frame := frame) hn
      have hnav' : (if nav = S then 0 else nav) < S := by split <;> omega
      have hfr' : (if nav = S then frame + 1 else frame) < last := by
        split <;> omega
      rw [← hpos]
      generalize (if nav = S then 0 else nav) = nav' at *
      generalize (if nav = S then frame + 1 else frame) = frame' at *
      by_cases hv : v = marker
      · rw [if_neg (by simpa using hv)]
        rw [fillSum_eq hr vs (nav' + 1) frame' a hS hS0 (by omega) hfr']
        rw [events, if_pos hv]
        rfl
      · rw [if_pos (by simpa using hv), events, if_neg hv]
        by_cases hff : first ≤ frame'
        · rw [if_pos hff, if_neg (by omega)]
          have hsel : sel S first last ((frame' * S + nav', v) :: events (frame' * S + nav') vs) =
              (frame' * S + nav', v) :: sel S first last (events (frame' * S + nav') vs) := by
            unfold sel
            rw [List.filter_cons_of_pos]
            simp only [decide_eq_true_eq]
            exact ⟨(mul_le_mul_add_iff hnav').2 hff, (mul_add_lt_iff hnav').2 hfr'⟩
          rw [hsel, List.foldlM_cons]
          have hact : act3 m S rebin a (frame' * S + nav', v) =
              a.incr m (nav' / a.nx) (nav' % a.nx) (v / rebin) := by
            unfold act3
            have h2 : (frame' * S + nav') % S = nav' := by
              rw [Nat.mul_comm, Nat.mul_add_mod, Nat.mod_eq_of_lt hnav']
            rw [h2]
          rw [hact]
          cases h : a.incr m (nav' / a.nx) (nav' % a.nx) (v / rebin) with
          | error e => rfl
          | ok a' =>
            have hs := Img3.incr_shape h
            have := fillSum_eq (m := m) (first := first) (last := last) hr vs nav' frame' a'
              (by rw [hs.1, hs.2.1]; exact hS) hS0 (by omega) hfr'
            simp only [this]
            rfl
        · rw [if_neg hff, fillSum_eq hr vs nav' frame' a hS hS0 (by omega) hfr']
          congr 1
          unfold sel
          rw [List.filter_cons_of_neg]
          simp only [decide_eq_true_eq]
          intro h
          exact hff ((mul_le_mul_add_iff hnav').1 h.1)

/-- Number of the pixel at `(f, y, x)`. -/
def pix (ny nx f y x : Nat) : Nat := (f * ny + y) * nx + x

theorem pix_eq (ny nx f y x : Nat) : pix ny nx f y x = f * (ny * nx) + (y * nx + x) := by
  unfold pix; rw [Nat.add_mul, Nat.mul_assoc]; omega

theorem yx_lt {ny nx y x : Nat} (hy : y < ny) (hx : x < nx) : y * nx + x < ny * nx :=
  (mul_add_lt_iff hx).2 hy

theorem pix_div {ny nx f y x : Nat} (hy : y < ny) (hx : x < nx) :
    pix ny nx f y x / (ny * nx) = f := by
  have := yx_lt hy hx
  rw [pix_eq, Nat.mul_comm f, Nat.mul_add_div (by omega), Nat.div_eq_of_lt this]; omega

theorem pix_mod {ny nx f y x : Nat} (hy : y < ny) (hx : x < nx) :
    pix ny nx f y x % (ny * nx) = y * nx + x := by
  have := yx_lt hy hx
  rw [pix_eq, Nat.mul_comm f, Nat.mul_add_mod, Nat.mod_eq_of_lt this]

/-- Coordinates determine the pixel number. -/
theorem coord_iff {ny nx q f y x : Nat} (hy : y < ny) (hx : x < nx) :
    (q / (ny * nx) = f ∧ q % (ny * nx) / nx = y ∧ q % (ny * nx) % nx = x) ↔ q = pix ny nx f y x := by
  constructor
  · rintro ⟨h1, h2, h3⟩
    rw [pix_eq]
    have e1 := Nat.div_add_mod q (ny * nx)
    have e2 := Nat.div_add_mod (q % (ny * nx)) nx
    rw [h1, Nat.mul_comm _ f] at e1
    rw [h2, h3, Nat.mul_comm _ y] at e2
    omega
  · intro h
    subst h
    rw [pix_div hy hx, pix_mod hy hx]
    refine ⟨rfl, ?_, ?_⟩
    · rw [Nat.mul_comm y, Nat.mul_add_div (by omega), Nat.div_eq_of_lt hx]; omega
    · rw [Nat.mul_comm y, Nat.mul_add_mod, Nat.mod_eq_of_lt hx]

theorem yx_iff {ny nx q y x : Nat} (hy : y < ny) (hx : x < nx) :
    (q % (ny * nx) / nx = y ∧ q % (ny * nx) % nx = x) ↔ q = pix ny nx (q / (ny * nx)) y x := by
  have := coord_iff (q := q) (f := q / (ny * nx)) hy hx
  simpa using this

theorem foldlM_act4 {m S first rebin nf ny nx nc : Nat} (hS : S = ny * nx) (hS0 : 0 < S) :
    ∀ (es : List (Nat × Nat)) (a : Img4), a.nf = nf → a.ny = ny → a.nx = nx → a.nc = nc →
      (∀ f y x c, a.val f y x c < m) →
      (∀ q ∈ es, first * S ≤ q.1 ∧ q.1 < (first + nf) * S) →
      if ∀ q ∈ es, q.2 / rebin < nc then
        ∃ a', es.foldlM (act4 m S first rebin) a = .ok a' ∧
          a'.nf = nf ∧ a'.ny = ny ∧ a'.nx = nx ∧ a'.nc = nc ∧
          ∀ f y x c, f < nf → y < ny → x < nx → c < nc →
            a'.val f y x c = (a.val f y x c +
              es.countP (fun q => decide (q.1 = pix ny nx (first + f) y x ∧ q.2 / rebin = c))) % m
      else es.foldlM (act4 m S first rebin) a = .error .indexError
  | [], a, h1, h2, h3, h4, hm, hq => by
    rw [if_pos (by simp)]
    refine ⟨a, rfl, h1, h2, h3, h4, ?_⟩
    intro f y x c _ _ _ _
    simp [Nat.mod_eq_of_lt (hm f y x c)]
  | q :: es, a, h1, h2, h3, h4, hm, hq => by
    have hq0 := hq q (by simp)
    have hq' : ∀ q ∈ es, first * S ≤ q.1 ∧ q.1 < (first + nf) * S := fun r hr => hq r (by simp [hr])
    have hnx : 0 < nx := by rcases Nat.eq_zero_or_pos nx with h | h; (subst h; simp at hS; omega); exact h
    have hf1 : first ≤ q.1 / S := (Nat.le_div_iff_mul_le hS0).2 hq0.1
    have hf2 : q.1 / S < first + nf := (Nat.div_lt_iff_lt_mul hS0).2 hq0.2
    have hmod : q.1 % S < S := Nat.mod_lt _ hS0
    have hy : q.1 % S / nx < ny := (Nat.div_lt_iff_lt_mul hnx).2 (by rw [← hS]; exact hmod)
    have hx : q.1 % S % nx < nx := Nat.mod_lt _ hnx
    rw [List.foldlM_cons]
    by_cases hc : q.2 / rebin < nc
    · have hact : act4 m S first rebin a q = .ok (a.bump m (q.1 / S - first) (q.1 % S / a.nx) (q.1 % S % a.nx) (q.2 / rebin)) := by
        unfold act4 Img4.incr
        rw [if_pos]
        · rfl
        · rw [h1, h2, h3, h4]
          exact ⟨by omega, hy, hx, hc⟩
      rw [hact]
      simp only [Bind.bind, Except.bind]
      have ih := foldlM_act4 (m := m) (first := first) (rebin := rebin) hS hS0 es
        (a.bump m (q.1 / S - first) (q.1 % S / a.nx) (q.1 % S % a.nx) (q.2 / rebin)) h1 h2 h3 h4
        (by
          intro f y x c
          simp only [Img4.bump, Img3.bump]
          split
          · exact Nat.mod_lt _ (Nat.lt_of_le_of_lt (Nat.zero_le _) (hm f y x c))
          · exact hm f y x c) hq'
      split at ih
      · rename_i hall
        rw [if_pos (by intro r hr; rcases List.mem_cons.1 hr with h | h; (subst h; exact hc); exact hall r h)]
        obtain ⟨a', he, g1, g2, g3, g4, hv⟩ := ih
        refine ⟨a', he, g1, g2, g3, g4, ?_⟩
        intro f y x c hf hy' hx' hc'
        rw [hv f y x c hf hy' hx' hc', List.countP_cons]
        simp only [Img4.bump, Img3.bump]
        have hiff : (f = q.1 / S - first ∧ y = q.1 % S / a.nx ∧ x = q.1 % S % a.nx ∧ c = q.2 / rebin) ↔
            (q.1 = pix ny nx (first + f) y x ∧ q.2 / rebin = c) := by
          rw [← coord_iff hy' hx', h3, ← hS]
          constructor
          · rintro ⟨r1, r2, r3, r4⟩; exact ⟨⟨by omega, r2.symm, r3.symm⟩, r4.symm⟩
          · rintro ⟨⟨r1, r2, r3⟩, r4⟩; exact ⟨by omega, r2.symm, r3.symm, r4.symm⟩
        by_cases hh : q.1 = pix ny nx (first + f) y x ∧ q.2 / rebin = c
        · rw [if_pos (hiff.2 hh)]
          obtain ⟨r1, r2, r3, r4⟩ := hiff.2 hh
          rw [← r1, ← r2, ← r3, ← r4]
          simp only [hh, and_self, decide_true, if_true]
          rw [Nat.mod_add_mod]
          congr 1
          omega
        · rw [if_neg (fun h => hh (hiff.1 h))]
          simp only [hh, decide_false, Bool.false_eq_true, if_false, Nat.add_zero]
      · rename_i hall
        rw [if_neg (fun h => hall fun r hr => h r (by simp [hr]))]
        exact ih
    · rw [if_neg (fun h => hc (h q (by simp)))]
      have hact : act4 m S first rebin a q = .error .indexError := by
        unfold act4 Img4.incr
        rw [if_neg]
        rw [h4]
        exact fun h => hc h.2.2.2
      rw [hact]; rfl

theorem foldlM_act3 {m S rebin ny nx nc : Nat} (hS : S = ny * nx) (hS0 : 0 < S) :
    ∀ (es : List (Nat × Nat)) (a : Img3), a.ny = ny → a.nx = nx → a.nc = nc →
      (∀ y x c, a.val y x c < m) →
      if ∀ q ∈ es, q.2 / rebin < nc then
        ∃ a', es.foldlM (act3 m S rebin) a = .ok a' ∧
          a'.ny = ny ∧ a'.nx = nx ∧ a'.nc = nc ∧
          ∀ y x c, y < ny → x < nx → c < nc →
            a'.val y x c = (a.val y x c +
              es.countP (fun q => decide (q.1 = pix ny nx (q.1 / S) y x ∧ q.2 / rebin = c))) % m
      else es.foldlM (act3 m S rebin) a = .error .indexError
  | [], a, h2, h3, h4, hm => by
    rw [if_pos (by simp)]
    refine ⟨a, rfl, h2, h3, h4, ?_⟩
    intro y x c _ _ _
    simp [Nat.mod_eq_of_lt (hm y x c)]
  | q :: es, a, h2, h3, h4, hm => by
    have hnx : 0 < nx := by rcases Nat.eq_zero_or_pos nx with h | h; (subst h; simp at hS; omega); exact h
    have hmod : q.1 % S < S := Nat.mod_lt _ hS0
    have hy : q.1 % S / nx < ny := (Nat.div_lt_iff_lt_mul hnx).2 (by rw [← hS]; exact hmod)
    have hx : q.1 % S % nx < nx := Nat.mod_lt _ hnx
    rw [List.foldlM_cons]
    by_cases hc : q.2 / rebin < nc
    · have hact : act3 m S rebin a q = .ok (a.bump m (q.1 % S / a.nx) (q.1 % S % a.nx) (q.2 / rebin)) := by
        unfold act3 Img3.incr
        rw [if_pos]
        · rfl
        · rw [h2, h3, h4]
          exact ⟨hy, hx, hc⟩
      rw [hact]
      simp only [Bind.bind, Except.bind]
      have ih := foldlM_act3 (m := m) (rebin := rebin) hS hS0 es
        (a.bump m (q.1 % S / a.nx) (q.1 % S % a.nx) (q.2 / rebin)) h2 h3 h4
        (by
          intro y x c
          simp only [Img4.bump, Img3.bump]
          split
          · exact Nat.mod_lt _ (Nat.lt_of_le_of_lt (Nat.zero_le _) (hm y x c))
          · exact hm y x c)
      split at ih
      · rename_i hall
        rw [if_pos (by intro r hr; rcases List.mem_cons.1 hr with h | h; (subst h; exact hc); exact hall r h)]
        obtain ⟨a', he, g2, g3, g4, hv⟩ := ih
        refine ⟨a', he, g2, g3, g4, ?_⟩
        intro y x c hy' hx' hc'
        rw [hv y x c hy' hx' hc', List.countP_cons]
        simp only [Img4.bump, Img3.bump]
        have hiff : (y = q.1 % S / a.nx ∧ x = q.1 % S % a.nx ∧ c = q.2 / rebin) ↔
            (q.1 = pix ny nx (q.1 / S) y x ∧ q.2 / rebin = c) := by
          rw [hS, ← yx_iff hy' hx', h3]
          constructor
          · rintro ⟨r2, r3, r4⟩; exact ⟨⟨r2.symm, r3.symm⟩, r4.symm⟩
          · rintro ⟨⟨r2, r3⟩, r4⟩; exact ⟨r2.symm, r3.symm, r4.symm⟩
        by_cases hh : q.1 = pix ny nx (q.1 / S) y x ∧ q.2 / rebin = c
        · rw [if_pos (hiff.2 hh)]
          obtain ⟨r2, r3, r4⟩ := hiff.2 hh
          rw [← r2, ← r3, ← r4, if_pos (by rw [decide_eq_true_eq, r4]; exact ⟨hh.1, rfl⟩), Nat.mod_add_mod]
          congr 1
          omega
        · rw [if_neg (fun h => hh (hiff.1 h)), if_neg (by rw [decide_eq_true_eq]; exact hh), Nat.add_zero]
      · rename_i hall
        rw [if_neg (fun h => hall fun r hr => h r (by simp [hr]))]
        exact ih
    · rw [if_neg (fun h => hc (h q (by simp)))]
      have hact : act3 m S rebin a q = .error .indexError := by
        unfold act3 Img3.incr
        rw [if_neg]
        rw [h4]
        exact fun h => hc h.2.2
      rw [hact]; rfl

/-! ### The sparse readers -/

abbrev Run := Nat × Nat × Nat × Nat

/-- Total weight of the stored runs whose pixel number and channel satisfy `w`. -/
def wsum (S : Nat) (w : Nat → Nat → Bool) (out : List Run) : Nat :=
  (out.map fun r => if w (r.1 * S + r.2.1) r.2.2.1 then r.2.2.2 else 0).sum

theorem wsum_append (S : Nat) (w : Nat → Nat → Bool) (a b : List Run) :
    wsum S w (a ++ b) = wsum S w a + wsum S w b := by
  simp [wsum, List.map_append, List.sum_append_nat]

/-- Weight of the run being accumulated. -/
def pend (S : Nat) (w : Nat → Nat → Bool) (s : SpState) : Nat :=
  if w (s.frame * S + s.nav) s.chan then s.data else 0

theorem wsum_store (S : Nat) (w : Nat → Nat → Bool) (s : SpState) :
    wsum S w s.store.out = wsum S w s.out + pend S w s := by
  simp [SpState.store, wsum_append, pend, wsum]

def fin (s : SpState) : List Run := (if s.data ≠ 0 then s.store else s).out

theorem wsum_fin (S : Nat) (w : Nat → Nat → Bool) (s : SpState) :
    wsum S w (fin s) = wsum S w s.out + pend S w s := by
  unfold fin
  split
  · exact wsum_store S w s
  · rename_i h
    have : s.data = 0 := by omega
    simp [pend, this]

/-- Well-formed stored runs. -/
def RunsOk (S first last : Nat) (out : List Run) : Prop :=
  ∀ r ∈ out, first ≤ r.1 ∧ r.1 < last ∧ r.2.1 < S ∧ 0 < r.2.2.2

/-- Loop invariant of the sparse readers. -/
structure SpInv (S first last : Nat) (s : SpState) : Prop where
  nav_le : s.nav ≤ S
  frame_lt : s.frame < last
  skip : s.frame < first → s.data = 0 ∧ s.nav < S
  full : s.data ≠ 0 → s.nav < S
  runs : RunsOk S first last s.out

theorem RunsOk.store {S first last : Nat} {s : SpState} (h : SpInv S first last s)
    (hd : s.data ≠ 0) : RunsOk S first last s.store.out := by
  intro r hr
  simp only [SpState.store, List.mem_append, List.mem_singleton] at hr
  rcases hr with hr | hr
  · exact h.runs r hr
  · subst hr
    refine ⟨?_, h.frame_lt, h.full hd, Nat.pos_of_ne_zero hd⟩
    by_cases hf : s.frame < first
    · exact absurd (h.skip hf).1 hd
    · simpa using hf

theorem sel_cons_in {S first last : Nat} {q : Nat × Nat} {es : List (Nat × Nat)}
    (h1 : first * S ≤ q.1) (h2 : q.1 < last * S) :
    sel S first last (q :: es) = q :: sel S first last es := by
  unfold sel
  rw [List.filter_cons_of_pos (by simp; omega)]

theorem sel_cons_out {S first last : Nat} {q : Nat × Nat} {es : List (Nat × Nat)}
    (h1 : q.1 < first * S) :
    sel S first last (q :: es) = sel S first last es := by
  unfold sel
  rw [List.filter_cons_of_neg (by simp; omega)]

theorem spLoop_spec {S first last : Nat} (hS0 : 0 < S) (hfl : first < last)
    (w : Nat → Nat → Bool) :
    ∀ (vs : List Nat) (s : SpState), SpInv S first last s →
      wsum S w (fin (spLoop S first last vs s)) =
          wsum S w s.out + pend S w s +
            (sel S first last (events (s.frame * S + s.nav) vs)).countP (fun q => w q.1 q.2) ∧
      RunsOk S first last (fin (spLoop S first last vs s))
  | [], s, h => by
    simp only [spLoop, events, sel, List.filter_nil, List.countP_nil, Nat.add_zero]
    refine ⟨wsum_fin S w s, ?_⟩
    unfold fin
    split
    · rename_i hd; exact RunsOk.store h hd
    · exact h.runs
  | v :: vs, s, h => by
    unfold spLoop spStep
    by_cases hskip : s.frame < first
    · obtain ⟨hd0, hn⟩ := h.skip hskip
      rw [if_pos hskip]
      by_cases hv : v = marker
      · rw [if_neg (by simpa using hv)]
        rw [events, if_pos hv]
        by_cases hend : s.nav + 1 = S
        · rw [if_pos hend]
          have ih := spLoop_spec hS0 hfl w vs { s with nav := 0, frame := s.frame + 1 }
            ⟨by simp, by simp; omega, by intro _; exact ⟨hd0, hS0⟩, by intro _; exact hS0, h.runs⟩
          simp only at ih ⊢
          refine ⟨?_, ih.2⟩
          rw [ih.1]
          have e : (s.frame + 1) * S + 0 = s.frame * S + s.nav + 1 := by
            rw [Nat.succ_mul]; omega
          rw [e]
          simp [pend, hd0]
        · rw [if_neg hend]
          have ih := spLoop_spec hS0 hfl w vs { s with nav := s.nav + 1 }
            ⟨by simp; omega, h.frame_lt, by intro _; exact ⟨hd0, by simp; omega⟩,
              by intro _; simp; omega, h.runs⟩
          simp only at ih ⊢
          refine ⟨?_, ih.2⟩
          rw [ih.1]
          simp [pend, hd0, Nat.add_assoc]
      · rw [if_pos (by simpa using hv)]
        rw [events, if_neg hv, sel_cons_out (by
          simp only
          have := (mul_add_lt_iff (f := s.frame) (g := first) hn).2 hskip
          omega)]
        exact spLoop_spec hS0 hfl w vs s h
    · rw [if_neg hskip]
      simp only
      by_cases hwrap : s.nav = S
      · have hd0 : s.data = 0 := by
          by_cases hd : s.data = 0
          · exact hd
          · have := h.full hd; omega
        simp only [hwrap, if_true, true_and]
        by_cases hlast : s.frame + 1 = last
        · rw [if_pos hlast]
          simp only
          rw [sel_nil_of_ge]
          · have hpe : ∀ s' : SpState, s'.data = 0 → s'.out = s.out → fin s' = s.out := by
              intro s' h1 h2; unfold fin; rw [if_neg (by omega)]; exact h2
            rw [hpe { s with nav := 0, frame := s.frame + 1 } hd0 rfl]
            exact ⟨by simp [pend, hd0], h.runs⟩
          · subst hlast; rw [Nat.succ_mul]; omega
        · rw [if_neg hlast]
          have epos : s.frame * S + S = (s.frame + 1) * S + 0 := by rw [Nat.succ_mul]; omega
          have hlt : s.frame + 1 < last := by have := h.frame_lt; omega
          by_cases hv : v = marker
          · rw [if_neg (by simpa using hv), events, if_pos hv, if_neg (by simp [hd0])]
            have ih := spLoop_spec hS0 hfl w vs { s with nav := 0 + 1, frame := s.frame + 1, data := 0 }
              ⟨by simp; omega, hlt, by intro hh; simp at hh; omega, by simp, h.runs⟩
            simp only at ih ⊢
            refine ⟨?_, ih.2⟩
            rw [ih.1, epos]
            simp [pend, hd0]
          · rw [if_pos (by simpa using hv), events, if_neg hv, if_neg (by simp [hd0])]
            have ih := spLoop_spec hS0 hfl w vs
              { s with nav := 0, frame := s.frame + 1, data := 1, chan := v }
              ⟨by simp, hlt, by intro hh; simp at hh; omega, by intro _; exact hS0, h.runs⟩
            simp only at ih ⊢
            refine ⟨?_, ih.2⟩
            rw [ih.1, epos, sel_cons_in (by simp only; exact (mul_le_mul_add_iff hS0).2 (by omega))
              (by simp only; exact (mul_add_lt_iff hS0).2 hlt), List.countP_cons]
            simp only [pend, hd0]
            cases w ((s.frame + 1) * S + 0) v <;> simp <;> omega
      · have hn : s.nav < S := by have := h.nav_le; omega
        simp only [hwrap, if_false, false_and]
        have hin1 : first * S ≤ s.frame * S + s.nav := (mul_le_mul_add_iff hn).2 (by omega)
        have hin2 : s.frame * S + s.nav < last * S := (mul_add_lt_iff hn).2 h.frame_lt
        by_cases hv : v = marker
        · rw [if_neg (by simpa using hv), events, if_pos hv]
          by_cases hd : s.data = 0
          · rw [if_neg (by simpa using hd)]
            have ih := spLoop_spec hS0 hfl w vs { s with nav := s.nav + 1, data := 0 }
              ⟨by simp; omega, h.frame_lt, by intro hh; simp at hh; omega, by simp, h.runs⟩
            simp only at ih ⊢
            refine ⟨?_, ih.2⟩
            rw [ih.1]
            simp [pend, hd, Nat.add_assoc]
          · rw [if_pos (by simpa using hd)]
            have ih := spLoop_spec hS0 hfl w vs { s.store with nav := s.nav + 1, data := 0 }
              ⟨by simp; omega, h.frame_lt, by intro hh; simp [SpState.store] at hh; omega, by simp,
                RunsOk.store h hd⟩
            refine ⟨?_, ih.2⟩
            have e1 := ih.1
            simp only at e1 ⊢
            have e2 := wsum_store S w s
            have e3 : ({ s.store with nav := s.nav + 1, data := 0 } : SpState).frame = s.frame := rfl
            rw [e2] at e1
            simp only [SpState.store] at e1 ⊢
            rw [e1]
            simp [pend, Nat.add_assoc]
        · rw [if_pos (by simpa using hv), events, if_neg hv, sel_cons_in hin1 hin2, List.countP_cons]
          by_cases hd : s.data = 0
          · rw [if_neg (by simpa using hd)]
            have ih := spLoop_spec hS0 hfl w vs { s with data := 1, chan := v }
              ⟨h.nav_le, h.frame_lt, by intro hh; simp at hh; omega, by intro _; exact hn, h.runs⟩
            simp only at ih ⊢
            refine ⟨?_, ih.2⟩
            rw [ih.1]
            simp only [pend, hd]
            cases w (s.frame * S + s.nav) v <;> simp <;> omega
          · rw [if_pos (by simpa using hd)]
            by_cases hsame : v = s.chan
            · rw [if_pos hsame]
              have ih := spLoop_spec hS0 hfl w vs { s with data := s.data + 1 }
                ⟨h.nav_le, h.frame_lt, by intro hh; simp at hh; omega, by intro _; exact hn, h.runs⟩
              simp only at ih ⊢
              refine ⟨?_, ih.2⟩
              rw [ih.1]
              simp only [pend, hsame]
              cases w (s.frame * S + s.nav) s.chan <;> simp <;> omega
            · rw [if_neg hsame]
              have ih := spLoop_spec hS0 hfl w vs { s.store with data := 1, chan := v }
                ⟨h.nav_le, h.frame_lt, by intro hh; simp [SpState.store] at hh; omega,
                  by intro _; exact hn, RunsOk.store h hd⟩
              refine ⟨?_, ih.2⟩
              have e1 := ih.1
              simp only at e1 ⊢
              rw [wsum_store S w s] at e1
              simp only [SpState.store] at e1 ⊢
              rw [e1]
              simp only [pend]
              cases w (s.frame * S + s.nav) v <;> simp <;> omega

theorem spRuns_spec {S first last : Nat} (hS0 : 0 < S) (hfl : first < last)
    (w : Nat → Nat → Bool) (stream : List Nat) :
    wsum S w (spRuns S first last stream) =
      (sel S first last (events 0 stream)).countP (fun q => w q.1 q.2) ∧
    RunsOk S first last (spRuns S first last stream) := by
  have h := spLoop_spec hS0 hfl w stream ⟨0, 0, 0, 0, []⟩
    ⟨by simp, by simp; omega, by intro _; exact ⟨rfl, hS0⟩, by simp, by intro r hr; simp at hr⟩
  simpa [wsum, pend, spRuns, fin] using h

/-! ### Link to the specification -/

theorem count_eq {stream : List Nat} {ny nx rebin first last f y x c : Nat}
    (hy : y < ny) (hx : x < nx) (h1 : first ≤ f) (h2 : f < last) :
    (sel (ny * nx) first last (events 0 stream)).countP
        (fun q => decide (q.1 = pix ny nx f y x ∧ q.2 / rebin = c)) =
      count stream ny nx rebin f y x c := by
  unfold count eventsOf sel
  have := pixel_eq stream 0 (pix ny nx f y x) (Nat.zero_le _)
  rw [Nat.sub_zero] at this
  unfold pix at this
  rw [this, List.countP_map, List.countP_filter, List.countP_filter]
  apply List.countP_congr
  intro q _
  have hlt := yx_lt hy hx
  have e1 := (mul_le_mul_add_iff (f := f) (g := first) hlt).2 h1
  have e2 := (mul_add_lt_iff (f := f) (g := last) hlt).2 h2
  have e3 := pix_eq ny nx f y x
  unfold pix at e3 ⊢
  simp only [Function.comp, Bool.and_eq_true, decide_eq_true_eq]
  constructor
  · rintro ⟨⟨a, b⟩, _⟩; exact ⟨b, a⟩
  · rintro ⟨a, b⟩; exact ⟨⟨b, a⟩, by omega⟩

theorem inRange_iff {stream : List Nat} {ny nx rebin first last nc : Nat} (hny : 0 < ny)
    (hnx : 0 < nx) :
    InRange stream ny nx rebin first last nc ↔
      ∀ q ∈ sel (ny * nx) first last (events 0 stream), q.2 / rebin < nc := by
  have hev : ∀ f y x e, e ∈ eventsOf stream ny nx f y x ↔ (pix ny nx f y x, e) ∈ events 0 stream := by
    intro f y x e
    unfold eventsOf
    have := pixel_eq stream 0 (pix ny nx f y x) (Nat.zero_le _)
    rw [Nat.sub_zero] at this
    unfold pix at this
    rw [this]
    simp only [List.mem_map, List.mem_filter, decide_eq_true_eq]
    constructor
    · rintro ⟨q, ⟨h1, h2⟩, h3⟩
      have : q = (pix ny nx f y x, e) := Prod.ext h2 h3
      rwa [this] at h1
    · intro h; exact ⟨_, ⟨h, rfl⟩, rfl⟩
  have hS0 : 0 < ny * nx := Nat.mul_pos hny hnx
  constructor
  · intro h q hq
    unfold sel at hq
    simp only [List.mem_filter, decide_eq_true_eq] at hq
    obtain ⟨hq1, hq2, hq3⟩ := hq
    have hmod : q.1 % (ny * nx) < ny * nx := Nat.mod_lt _ hS0
    have hy : q.1 % (ny * nx) / nx < ny := (Nat.div_lt_iff_lt_mul hnx).2 hmod
    have hx : q.1 % (ny * nx) % nx < nx := Nat.mod_lt _ hnx
    refine h (q.1 / (ny * nx)) (q.1 % (ny * nx) / nx) (q.1 % (ny * nx) % nx)
      ((Nat.le_div_iff_mul_le hS0).2 hq2) ((Nat.div_lt_iff_lt_mul hS0).2 hq3) hy hx q.2 ?_
    rw [hev, ← (coord_iff hy hx).1 ⟨rfl, rfl, rfl⟩]
    exact hq1
  · intro h f y x h1 h2 hy hx e he
    rw [hev] at he
    refine h (pix ny nx f y x, e) ?_
    unfold sel
    simp only [List.mem_filter, decide_eq_true_eq]
    have hlt := yx_lt hy hx
    refine ⟨he, ?_, ?_⟩
    · rw [pix_eq]; exact (mul_le_mul_add_iff hlt).2 h1
    · rw [pix_eq]; exact (mul_add_lt_iff hlt).2 h2

theorem sum_indicator (n g : Nat) :
    ((List.range n).map fun k => if g = k then 1 else 0).sum = if g < n then 1 else 0 := by
  induction n with
  | zero => simp
  | succ n ih =>
    rw [List.range_succ, List.map_append, List.sum_append_nat, ih]
    simp only [List.map_cons, List.map_nil, List.sum_cons, List.sum_nil]
    split <;> split <;> split <;> omega

theorem sum_map_add {α : Type} (f g : α → Nat) (l : List α) :
    (l.map fun k => f k + g k).sum = (l.map f).sum + (l.map g).sum := by
  induction l with
  | nil => rfl
  | cons a l ih => simp only [List.map_cons, List.sum_cons, ih]; omega

theorem countP_split {α : Type} (g : α → Nat) (n : Nat) (p : α → Bool) (es : List α)
    (h : ∀ q ∈ es, p q = true → g q < n) :
    es.countP p = ((List.range n).map fun k => es.countP (fun q => p q && decide (g q = k))).sum := by
  induction es with
  | nil =>
    simp only [List.countP_nil]
    have : ∀ l : List Nat, (l.map fun _ => 0).sum = 0 := by
      intro l; induction l with
      | nil => rfl
      | cons a l ih => simpa using ih
    rw [this]
  | cons q es ih =>
    have ih := ih (fun r hr => h r (by simp [hr]))
    simp only [List.countP_cons]
    rw [sum_map_add, ← ih]
    congr 1
    by_cases hp : p q = true
    · have := h q (by simp) hp
      rw [if_pos hp]
      have e := sum_indicator n (g q)
      rw [if_pos this] at e
      refine e.symm.trans ?_
      congr 1
      apply List.map_congr_left
      intro k _
      simp [hp]
    · rw [if_neg hp]
      have : (fun k => if (p q && decide (g q = k)) = true then 1 else 0) = fun _ : Nat => 0 := by
        funext k; simp [hp]
      rw [this]
      clear ih h
      induction (List.range n) with
      | nil => rfl
      | cons a l ih => simpa using ih

theorem countSum_eq {stream : List Nat} {ny nx rebin first last y x c : Nat}
    (hy : y < ny) (hx : x < nx) :
    (sel (ny * nx) first last (events 0 stream)).countP
        (fun q => decide (q.1 = pix ny nx (q.1 / (ny * nx)) y x ∧ q.2 / rebin = c)) =
      countSum stream ny nx rebin first last y x c := by
  have hS0 : 0 < ny * nx := Nat.mul_pos (by omega) (by omega)
  rw [countP_split (fun q => q.1 / (ny * nx) - first) (last - first)]
  · unfold countSum
    congr 1
    apply List.map_congr_left
    intro k hk
    rw [List.mem_range] at hk
    rw [← count_eq (first := first) (last := last) hy hx (by omega) (by omega)]
    apply List.countP_congr
    intro q hq
    unfold sel at hq
    simp only [List.mem_filter, decide_eq_true_eq] at hq
    have h1 : first ≤ q.1 / (ny * nx) := (Nat.le_div_iff_mul_le hS0).2 hq.2.1
    simp only [Bool.and_eq_true, decide_eq_true_eq]
    constructor
    · rintro ⟨⟨a, b⟩, d⟩
      have : q.1 / (ny * nx) = first + k := by omega
      rw [this] at a
      exact ⟨a, b⟩
    · rintro ⟨a, b⟩
      have : q.1 / (ny * nx) = first + k := by rw [a]; exact pix_div hy hx
      refine ⟨⟨by rw [this]; exact a, b⟩, by omega⟩
  · intro q hq _
    unfold sel at hq
    simp only [List.mem_filter, decide_eq_true_eq] at hq
    have h1 : first ≤ q.1 / (ny * nx) := (Nat.le_div_iff_mul_le hS0).2 hq.2.1
    have h2 : q.1 / (ny * nx) < last := (Nat.div_lt_iff_lt_mul hS0).2 hq.2.2
    omega

theorem streamToFrames_spec {m : Nat} {stream : List Nat} {ny nx channels last first rebin : Nat}
    (hm : 0 < m) (hny : 0 < ny) (hnx : 0 < nx) (hr : 0 < rebin) (hfl : first ≤ last)
    (hl : 0 < last) :
    (InRange stream ny nx rebin first last (channels / rebin) →
      ∃ a, streamToFrames m stream ny nx channels last first rebin = .ok a ∧
        a.nf = last - first ∧ a.ny = ny ∧ a.nx = nx ∧ a.nc = channels / rebin ∧
        ∀ f y x c, f < last - first → y < ny → x < nx → c < channels / rebin →
          a.val f y x c = count stream ny nx rebin (first + f) y x c % m) ∧
    (¬ InRange stream ny nx rebin first last (channels / rebin) →
      streamToFrames m stream ny nx channels last first rebin = .error .indexError) := by
  have hS0 : 0 < ny * nx := Nat.mul_pos hny hnx
  unfold streamToFrames
  rw [if_neg (by omega), if_neg (by omega), fillFrames_eq hr stream 0 0 _ rfl hS0 (by simp) hl]
  simp only [Img4.zeros, Nat.zero_mul, Nat.zero_add]
  have h := foldlM_act4 (m := m) (first := first) (rebin := rebin) (nf := last - first) (ny := ny)
    (nx := nx) (nc := channels / rebin) rfl hS0 (sel (ny * nx) first last (events 0 stream))
    (Img4.zeros (last - first) ny nx (channels / rebin)) rfl rfl rfl rfl (by intros; exact hm)
    (by
      intro q hq
      unfold sel at hq
      simp only [List.mem_filter, decide_eq_true_eq] at hq
      have : first + (last - first) = last := by omega
      rw [this]; exact hq.2)
  rw [inRange_iff hny hnx]
  constructor
  · intro hin
    rw [if_pos hin] at h
    obtain ⟨a, he, g1, g2, g3, g4, hv⟩ := h
    refine ⟨a, he, g1, g2, g3, g4, ?_⟩
    intro f y x c hf hy hx hc
    rw [hv f y x c hf hy hx hc, count_eq hy hx (by omega) (by omega)]
    simp [Img4.zeros]
  · intro hin
    rw [if_neg hin] at h
    exact h

theorem streamToSum_spec {m : Nat} {stream : List Nat} {ny nx channels last first rebin : Nat}
    (hm : 0 < m) (hny : 0 < ny) (hnx : 0 < nx) (hr : 0 < rebin) (hl : 0 < last) :
    (InRange stream ny nx rebin first last (channels / rebin) →
      ∃ a, streamToSum m stream ny nx channels last first rebin = .ok a ∧
        a.ny = ny ∧ a.nx = nx ∧ a.nc = channels / rebin ∧
        ∀ y x c, y < ny → x < nx → c < channels / rebin →
          a.val y x c = countSum stream ny nx rebin first last y x c % m) ∧
    (¬ InRange stream ny nx rebin first last (channels / rebin) →
      streamToSum m stream ny nx channels last first rebin = .error .indexError) := by
  have hS0 : 0 < ny * nx := Nat.mul_pos hny hnx
  unfold streamToSum
  rw [if_neg (by omega), fillSum_eq hr stream 0 0 _ rfl hS0 (by simp) hl]
  simp only [Img3.zeros, Nat.zero_mul, Nat.zero_add]
  have h := foldlM_act3 (m := m) (rebin := rebin) (ny := ny)
    (nx := nx) (nc := channels / rebin) rfl hS0 (sel (ny * nx) first last (events 0 stream))
    (Img3.zeros ny nx (channels / rebin)) rfl rfl rfl (by intros; exact hm)
  rw [inRange_iff hny hnx]
  constructor
  · intro hin
    rw [if_pos hin] at h
    obtain ⟨a, he, g2, g3, g4, hv⟩ := h
    refine ⟨a, he, g2, g3, g4, ?_⟩
    intro y x c hy hx hc
    rw [hv y x c hy hx hc, countSum_eq hy hx]
    simp [Img3.zeros]
  · intro hin
    rw [if_neg hin] at h
    exact h

theorem sum_eq_zero {α : Type} {l : List α} {f : α → Nat} (h : (l.map f).sum = 0) :
    ∀ a ∈ l, f a = 0 := by
  induction l with
  | nil => simp
  | cons b l ih =>
    simp only [List.map_cons, List.sum_cons] at h
    intro a ha
    rcases List.mem_cons.1 ha with e | e
    · subst e; omega
    · exact ih (by omega) a e

theorem run_pix {ny nx first f y x : Nat} {r : Run} (hy : y < ny) (hx : x < nx)
    (h1 : first ≤ r.1) (hn : r.2.1 < nx * ny) :
    (r.1 - first = f ∧ r.2.1 / nx = y ∧ r.2.1 % nx = x) ↔
      r.1 * (nx * ny) + r.2.1 = pix ny nx (first + f) y x := by
  rw [← coord_iff hy hx, Nat.mul_comm nx ny]
  rw [Nat.mul_comm nx ny] at hn
  have e1 : (r.1 * (ny * nx) + r.2.1) / (ny * nx) = r.1 := by
    rw [Nat.mul_comm, Nat.mul_add_div (by omega), Nat.div_eq_of_lt hn]; omega
  have e2 : (r.1 * (ny * nx) + r.2.1) % (ny * nx) = r.2.1 := by
    rw [Nat.mul_comm, Nat.mul_add_mod, Nat.mod_eq_of_lt hn]
  rw [e1, e2]
  constructor
  · rintro ⟨a, b, c⟩; exact ⟨by omega, b, c⟩
  · rintro ⟨a, b, c⟩; exact ⟨by omega, b, c⟩

theorem sparse_all {stream : List Nat} {ny nx rebin first last nc : Nat} (hny : 0 < ny)
    (hnx : 0 < nx) (hfl : first < last) :
    InRange stream ny nx rebin first last nc ↔
      ∀ r ∈ spRuns (nx * ny) first last stream, r.2.2.1 / rebin < nc := by
  have hS0 : 0 < nx * ny := Nat.mul_pos hnx hny
  have hw := spRuns_spec hS0 hfl (fun _ ch => decide (nc ≤ ch / rebin)) stream
  rw [inRange_iff hny hnx, Nat.mul_comm ny nx]
  constructor
  · intro h r hr
    have h0 : (sel (nx * ny) first last (events 0 stream)).countP
        (fun q => decide (nc ≤ q.2 / rebin)) = 0 := by
      rw [List.countP_eq_zero]
      intro q hq
      have := h q hq
      simp; omega
    rw [h0] at hw
    have h1 := sum_eq_zero hw.1 r hr
    have h2 := (hw.2 r hr).2.2.2
    by_cases hc : r.2.2.1 / rebin < nc
    · exact hc
    · rw [if_pos (by simp; omega)] at h1
      omega
  · intro h q hq
    by_cases hc : q.2 / rebin < nc
    · exact hc
    · have h1 : wsum (nx * ny) (fun _ ch => decide (nc ≤ ch / rebin)) (spRuns (nx * ny) first last stream) = 0 := by
        unfold wsum
        have : ∀ l : List Run, (∀ r ∈ l, r.2.2.1 / rebin < nc) →
            (l.map fun r => if decide (nc ≤ r.2.2.1 / rebin) = true then r.2.2.2 else 0).sum = 0 := by
          intro l; induction l with
          | nil => simp
          | cons a l ih =>
            intro hl
            have := hl a (by simp)
            simp only [List.map_cons, List.sum_cons]
            rw [ih (fun r hr => hl r (by simp [hr])), if_neg (by simp; omega)]
        exact this _ h
      rw [h1] at hw
      have := (List.countP_eq_zero.1 hw.1.symm) q hq
      simp at this
      omega

theorem sparseFrames_spec {stream : List Nat} {ny nx channels last first rebin : Nat}
    (hny : 0 < ny) (hnx : 0 < nx) (hr : 0 < rebin) (hfl : first < last) :
    (InRange stream ny nx rebin first last (channels / rebin) →
      ∃ a, sparseFrames stream ny nx channels last first rebin = .ok a ∧
        a.nf = last - first ∧ a.ny = ny ∧ a.nx = nx ∧ a.nc = channels / rebin ∧
        ∀ f y x c, f < last - first → y < ny → x < nx → c < channels / rebin →
          a.val f y x c = count stream ny nx rebin (first + f) y x c) ∧
    (¬ InRange stream ny nx rebin first last (channels / rebin) →
      sparseFrames stream ny nx channels last first rebin = .error .valueError) := by
  have hS0 : 0 < nx * ny := Nat.mul_pos hnx hny
  have hok := (spRuns_spec hS0 hfl (fun _ _ => true) stream).2
  unfold sparseFrames
  rw [if_neg (by omega)]
  simp only
  have hall : ((spRuns (nx * ny) first last stream).all fun r =>
      decide ((spCoord4 nx first rebin r).1 < last - first ∧ (spCoord4 nx first rebin r).2.1 < ny ∧
        (spCoord4 nx first rebin r).2.2.1 < nx ∧ (spCoord4 nx first rebin r).2.2.2 < channels / rebin)) = true ↔
      InRange stream ny nx rebin first last (channels / rebin) := by
    rw [sparse_all hny hnx hfl, List.all_eq_true]
    constructor
    · intro h r hr
      have := h r hr
      rw [decide_eq_true_eq] at this
      simp only [spCoord4] at this
      exact this.2.2.2
    · intro h r hr
      have h1 := h r hr
      have h2 := hok r hr
      rw [decide_eq_true_eq]
      simp only [spCoord4]
      refine ⟨by omega, ?_, Nat.mod_lt _ hnx, h1⟩
      exact (Nat.div_lt_iff_lt_mul hnx).2 (by rw [Nat.mul_comm]; exact h2.2.2.1)
  constructor
  · intro hin
    rw [if_pos (hall.2 hin)]
    refine ⟨_, rfl, rfl, rfl, rfl, rfl, ?_⟩
    intro f y x c hf hy hx hc
    simp only
    have hw := (spRuns_spec hS0 hfl
      (fun q ch => decide (q = pix ny nx (first + f) y x ∧ ch / rebin = c)) stream).1
    have hc1 := count_eq (stream := stream) (rebin := rebin) (c := c) hy hx
      (show first ≤ first + f by omega) (show first + f < last by omega)
    rw [Nat.mul_comm ny nx] at hc1
    rw [← hc1, ← hw]
    unfold wsum
    congr 1
    apply List.map_congr_left
    intro r hr
    have h2 := hok r hr
    have hiff := run_pix (first := first) (f := f) hy hx h2.1 h2.2.2.1
    have : (spCoord4 nx first rebin r = (f, y, x, c)) ↔
        (r.1 * (nx * ny) + r.2.1 = pix ny nx (first + f) y x ∧ r.2.2.1 / rebin = c) := by
      rw [← hiff]
      simp only [spCoord4, Prod.mk.injEq, and_assoc]
    by_cases hh : spCoord4 nx first rebin r = (f, y, x, c)
    · rw [if_pos hh, if_pos (by rw [decide_eq_true_eq]; exact this.1 hh)]
    · rw [if_neg hh, if_neg (by rw [decide_eq_true_eq]; exact fun h => hh (this.2 h))]
  · intro hin
    rw [if_neg (fun h => hin (hall.1 h))]

theorem sparseSum_spec {stream : List Nat} {ny nx channels last first rebin : Nat}
    (hny : 0 < ny) (hnx : 0 < nx) (hr : 0 < rebin) (hfl : first < last) :
    (InRange stream ny nx rebin first last (channels / rebin) →
      ∃ a, sparseSum stream ny nx channels last first rebin = .ok a ∧
        a.ny = ny ∧ a.nx = nx ∧ a.nc = channels / rebin ∧
        ∀ y x c, y < ny → x < nx → c < channels / rebin →
          a.val y x c = countSum stream ny nx rebin first last y x c) ∧
    (¬ InRange stream ny nx rebin first last (channels / rebin) →
      sparseSum stream ny nx channels last first rebin = .error .valueError) := by
  have hS0 : 0 < nx * ny := Nat.mul_pos hnx hny
  have hok := (spRuns_spec hS0 hfl (fun _ _ => true) stream).2
  unfold sparseSum
  rw [if_neg (by omega)]
  simp only
  have hall : ((spRuns (nx * ny) first last stream).all fun r =>
      decide ((spCoord3 nx rebin r).1 < ny ∧
        (spCoord3 nx rebin r).2.1 < nx ∧ (spCoord3 nx rebin r).2.2 < channels / rebin)) = true ↔
      InRange stream ny nx rebin first last (channels / rebin) := by
    rw [sparse_all hny hnx hfl, List.all_eq_true]
    constructor
    · intro h r hr
      have := h r hr
      rw [decide_eq_true_eq] at this
      simp only [spCoord3] at this
      exact this.2.2
    · intro h r hr
      have h1 := h r hr
      have h2 := hok r hr
      rw [decide_eq_true_eq]
      simp only [spCoord3]
      refine ⟨?_, Nat.mod_lt _ hnx, h1⟩
      exact (Nat.div_lt_iff_lt_mul hnx).2 (by rw [Nat.mul_comm]; exact h2.2.2.1)
  constructor
  · intro hin
    rw [if_pos (hall.2 hin)]
    refine ⟨_, rfl, rfl, rfl, rfl, ?_⟩
    intro y x c hy hx hc
    simp only
    have hw := (spRuns_spec hS0 hfl
      (fun q ch => decide (q = pix ny nx (q / (ny * nx)) y x ∧ ch / rebin = c)) stream).1
    have hc1 := countSum_eq (stream := stream) (rebin := rebin) (c := c) (first := first)
      (last := last) hy hx
    rw [Nat.mul_comm nx ny] at hw ⊢
    rw [← hc1, ← hw]
    unfold wsum
    congr 1
    apply List.map_congr_left
    intro r hr
    have h2 := hok r (by rw [Nat.mul_comm]; exact hr)
    have hn : r.2.1 < ny * nx := by rw [Nat.mul_comm]; exact h2.2.2.1
    have e1 : (r.1 * (ny * nx) + r.2.1) / (ny * nx) = r.1 := by
      rw [Nat.mul_comm r.1, Nat.mul_add_div (by omega), Nat.div_eq_of_lt hn]; omega
    have hiff := run_pix (first := r.1) (f := 0) hy hx (Nat.le_refl _) h2.2.2.1
    have : (spCoord3 nx rebin r = (y, x, c)) ↔
        (r.1 * (ny * nx) + r.2.1 = pix ny nx ((r.1 * (ny * nx) + r.2.1) / (ny * nx)) y x ∧
          r.2.2.1 / rebin = c) := by
      rw [e1]
      rw [Nat.mul_comm nx ny, Nat.add_zero] at hiff
      rw [← hiff]
      simp only [spCoord3, Prod.mk.injEq]
      constructor
      · rintro ⟨a, b, c⟩; exact ⟨⟨by omega, a, b⟩, c⟩
      · rintro ⟨⟨_, a, b⟩, c⟩; exact ⟨a, b, c⟩
    by_cases hh : spCoord3 nx rebin r = (y, x, c)
    · rw [if_pos hh, if_pos (by rw [decide_eq_true_eq]; exact this.1 hh)]
    · rw [if_neg hh, if_neg (by rw [decide_eq_true_eq]; exact fun h => hh (this.2 h))]
  · intro hin
    rw [if_neg (fun h => hin (hall.1 h))]

/-! ### `array_to_stream` -/

theorem pixels_replicate (v ch : Nat) (rest : List Nat) (h : ch ≠ 65535) :
    ∃ p ps, pixels rest = p :: ps ∧
      pixels (List.replicate v ch ++ rest) = (List.replicate v ch ++ p) :: ps := by
  obtain ⟨p, ps, hp⟩ : ∃ p ps, pixels rest = p :: ps := by
    cases hh : pixels rest with
    | nil => exact absurd hh (pixels_ne_nil rest)
    | cons q qs => exact ⟨q, qs, rfl⟩
  refine ⟨p, ps, hp, ?_⟩
  induction v with
  | zero => simpa using hp
  | succ v ih =>
    rw [List.replicate_succ, List.cons_append, pixels, if_neg h, ih]
    rfl

theorem toStream_count {nc : Nat} (hnc : nc ≤ 65535) :
    ∀ (flat : List Nat) (ch p c : Nat), ch < nc → c < nc →
      ((pixels (toStreamLoop nc flat ch))[p]?.getD []).count c =
        if ch ≤ p * nc + c then flat[p * nc + c - ch]?.getD 0 else 0
  | [], ch, p, c, h1, h2 => by
    cases p <;> simp [toStreamLoop, pixels]
  | v :: vs, ch, p, c, h1, h2 => by
    unfold toStreamLoop
    obtain ⟨q, qs, hq, hpx⟩ := pixels_replicate v ch
      (if (ch + 1) % nc = 0 then marker :: toStreamLoop nc vs 0 else toStreamLoop nc vs (ch + 1))
      (by omega)
    rw [hpx]
    by_cases hend : (ch + 1) % nc = 0
    · have hce : ch + 1 = nc := by
        have : ch + 1 ≤ nc := by omega
        rcases Nat.lt_or_ge (ch + 1) nc with h | h
        · rw [Nat.mod_eq_of_lt h] at hend; omega
        · omega
      rw [if_pos hend, pixels, if_pos (by rfl)] at hq
      injection hq with hq1 hq2
      subst hq1 hq2
      cases p with
      | zero =>
        simp only [List.append_nil, List.getElem?_cons_zero, Option.getD_some, List.count_replicate]
        by_cases hcc : c = ch
        · subst hcc; simp
        · rw [if_neg (by simpa using fun h => hcc h.symm), if_neg (by omega)]
      | succ p =>
        rw [List.getElem?_cons_succ, toStream_count hnc vs 0 p c (by omega) h2, if_pos (by omega)]
        have e : (p + 1) * nc + c - ch = (p * nc + c - 0) + 1 := by rw [Nat.succ_mul]; omega
        rw [if_pos (by rw [Nat.succ_mul]; omega), e, List.getElem?_cons_succ]
    · rw [if_neg hend] at hq
      have hch : ch + 1 < nc := by
        rcases Nat.lt_or_ge (ch + 1) nc with h | h
        · exact h
        · have : ch + 1 = nc := by omega
          rw [this, Nat.mod_self] at hend; omega
      have ih := toStream_count hnc vs (ch + 1) p c hch h2
      rw [hq] at ih
      cases p with
      | zero =>
        simp only [List.getElem?_cons_zero, Option.getD_some, List.count_append, List.count_replicate] at ih ⊢
        rw [ih]
        rcases Nat.lt_trichotomy c ch with h | h | h
        · rw [if_neg (by simp; omega), if_neg (by omega), if_neg (by omega)]
        · subst h; simp; intro h; omega
        · rw [if_neg (by simp; omega), if_pos (by omega), if_pos (by omega)]
          have e : 0 * nc + c - ch = (0 * nc + c - (ch + 1)) + 1 := by omega
          rw [e, List.getElem?_cons_succ]; omega
      | succ p =>
        rw [List.getElem?_cons_succ] at ih ⊢
        rw [ih]
        have hp : nc ≤ (p + 1) * nc := by rw [Nat.succ_mul]; omega
        rw [if_pos (by omega), if_pos (by omega)]
        have e : (p + 1) * nc + c - ch = ((p + 1) * nc + c - (ch + 1)) + 1 := by omega
        rw [e, List.getElem?_cons_succ]

theorem toStream_end {nc : Nat} (hnc : 0 < nc) :
    ∀ (flat : List Nat) (ch : Nat), flat ≠ [] → ch < nc → (ch + flat.length) % nc = 0 →
      ∃ t, toStreamLoop nc flat ch = t ++ [marker]
  | [], _, h, _, _ => absurd rfl h
  | v :: vs, ch, _, hch, hlen => by
    unfold toStreamLoop
    by_cases hend : (ch + 1) % nc = 0
    · rw [if_pos hend]
      cases vs with
      | nil => exact ⟨List.replicate v ch, rfl⟩
      | cons w ws =>
        have hce : ch + 1 = nc := by
          rcases Nat.lt_or_ge (ch + 1) nc with h | h
          · rw [Nat.mod_eq_of_lt h] at hend; omega
          · omega
        have : (0 + (w :: ws).length) % nc = 0 := by
          have e : ch + (v :: w :: ws).length = (w :: ws).length + nc := by
            simp only [List.length_cons]; omega
          rw [e, Nat.add_mod_right] at hlen
          simpa using hlen
        obtain ⟨t, ht⟩ := toStream_end hnc (w :: ws) 0 (by simp) hnc this
        exact ⟨List.replicate v ch ++ marker :: t, by rw [ht]; simp⟩
    · rw [if_neg hend]
      have hch' : ch + 1 < nc := by
        rcases Nat.lt_or_ge (ch + 1) nc with h | h
        · exact h
        · have : ch + 1 = nc := by omega
          rw [this, Nat.mod_self] at hend; omega
      cases vs with
      | nil =>
        simp only [List.length_cons, List.length_nil, Nat.zero_add] at hlen
        exact absurd hlen hend
      | cons w ws =>
        obtain ⟨t, ht⟩ := toStream_end hnc (w :: ws) (ch + 1) (by simp) hch'
          (by rw [← hlen]; congr 1; simp only [List.length_cons]; omega)
        exact ⟨List.replicate v ch ++ t, by rw [ht]; simp⟩

theorem pixels_append_marker : ∀ (t : List Nat), pixels (t ++ [marker]) = pixels t ++ [[]]
  | [] => by simp [pixels, marker]
  | v :: t => by
    rw [List.cons_append, pixels, pixels, pixels_append_marker t]
    split
    · simp
    · obtain ⟨q, qs, hq⟩ : ∃ q qs, pixels t = q :: qs := by
        cases hh : pixels t with
        | nil => exact absurd hh (pixels_ne_nil t)
        | cons q qs => exact ⟨q, qs, rfl⟩
      rw [hq]
      simp

theorem getD_append_nil (l : List (List Nat)) (p : Nat) :
    (l ++ [[]])[p]?.getD [] = l[p]?.getD [] := by
  by_cases h : p < l.length
  · rw [List.getElem?_append_left h]
  · rw [List.getElem?_append_right (by omega), List.getElem?_eq_none (l := l) (by omega)]
    cases p - l.length <;> simp

theorem arrayToStream_count {nc n : Nat} {flat : List Nat} (h0 : 0 < nc) (hnc : nc ≤ 65535)
    (hn : 0 < n) (hlen : flat.length = n * nc) (p c : Nat) (hc : c < nc) :
    ((pixels (arrayToStream nc flat))[p]?.getD []).count c = flat[p * nc + c]?.getD 0 := by
  have hne : flat ≠ [] := by
    intro h; rw [h] at hlen
    have := Nat.mul_pos hn h0
    simp at hlen; omega
  obtain ⟨t, ht⟩ := toStream_end h0 flat 0 hne h0 (by rw [hlen]; simp)
  have := toStream_count hnc flat 0 p c h0 hc
  rw [if_pos (by omega), Nat.sub_zero] at this
  rw [← this, arrayToStream, ht, pixels_append_marker, getD_append_nil, List.dropLast_concat]

theorem toStream_mem {nc : Nat} :
    ∀ (flat : List Nat) (ch : Nat), ch < nc → ∀ e ∈ toStreamLoop nc flat ch, e = marker ∨ e < nc
  | [], _, _, e, he => by simp [toStreamLoop] at he
  | v :: vs, ch, hch, e, he => by
    unfold toStreamLoop at he
    rcases List.mem_append.1 he with h | h
    · right; rw [List.eq_of_mem_replicate h]; exact hch
    · split at h
      · rcases List.mem_cons.1 h with h | h
        · exact .inl h
        · exact toStream_mem vs 0 (by omega) e h
      · rename_i hend
        have hch' : ch + 1 < nc := by
          rcases Nat.lt_or_ge (ch + 1) nc with h | h
          · exact h
          · have : ch + 1 = nc := by omega
            rw [this, Nat.mod_self] at hend; omega
        exact toStream_mem vs (ch + 1) hch' e h

theorem mem_pixels : ∀ (s : List Nat) (l : List Nat), l ∈ pixels s → ∀ e ∈ l, e ∈ s ∧ e ≠ 65535
  | [], l, hl, e, he => by simp [pixels] at hl; subst hl; simp at he
  | v :: vs, l, hl, e, he => by
    unfold pixels at hl
    split at hl
    · rcases List.mem_cons.1 hl with h | h
      · subst h; simp at he
      · have := mem_pixels vs l h e he; exact ⟨by simp [this.1], this.2⟩
    · rename_i hv
      split at hl
      · simp at hl; subst hl; simp at he; subst he; exact ⟨by simp, hv⟩
      · rename_i p ps hp
        rcases List.mem_cons.1 hl with h | h
        · subst h
          rcases List.mem_cons.1 he with h | h
          · subst h; exact ⟨by simp, hv⟩
          · have := mem_pixels vs p (by rw [hp]; simp) e h; exact ⟨by simp [this.1], this.2⟩
        · have := mem_pixels vs l (by rw [hp]; simp [h]) e he; exact ⟨by simp [this.1], this.2⟩

theorem arrayToStream_inRange {nc ny nx first last : Nat} {flat : List Nat} (h0 : 0 < nc) :
    InRange (arrayToStream nc flat) ny nx 1 first last (nc / 1) := by
  intro f y x _ _ _ _ e he
  unfold eventsOf at he
  cases hh : (pixels (arrayToStream nc flat))[(f * ny + y) * nx + x]? with
  | none => rw [hh] at he; simp at he
  | some l =>
    rw [hh] at he
    have := mem_pixels _ l (List.mem_of_getElem? hh) e he
    have h2 := toStream_mem flat 0 h0 e (List.dropLast_subset _ this.1)
    rcases h2 with h | h
    · exact absurd h this.2
    · simpa using h

end Verif.Fei
