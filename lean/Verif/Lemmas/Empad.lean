import Verif.Spec.Empad
import Verif.Lemmas.HamamatsuImage
import Mathlib.Data.Rat.Defs
import Mathlib.Tactic.FieldSimp
import Mathlib.Tactic.NormNum
/-! Lemmas on EMPAD files. -/
namespace Verif.Empad
open Verif.Spec.Empad
open Verif.Lemmas.HamamatsuImage (take_sub)
open Verif.Renishaw (Bytes chunk)

theorem flatten_piece {b : Nat} : ∀ {L : List Bytes}, (∀ x ∈ L, x.length = b) → L.flatten.length = L.length * b ∧
    ∀ k x (rest : Bytes), L[k]? = some x → ((L.flatten ++ rest).drop (k * b)).take b = x
  | [], _ => ⟨by simp, fun k x rest h => by simp at h⟩
  | y :: L, h => by
    obtain ⟨i1, i2⟩ := flatten_piece (L := L) fun x hx => h x (List.mem_cons_of_mem _ hx)
    have hy := h y (List.mem_cons_self ..)
    refine ⟨by rw [List.flatten_cons, List.length_append, i1, hy, List.length_cons]; ring, fun k x rest hk => ?_⟩
    cases k with
    | zero =>
      have hx : y = x := by simpa using hk
      subst hx
      rw [Nat.zero_mul, List.drop_zero, List.flatten_cons, List.append_assoc, List.take_append_of_le_length (by omega), List.take_of_length_le (by omega)]
    | succ k =>
      have e : (k + 1) * b = y.length + k * b := by rw [hy]; ring
      rw [e, ← List.drop_drop, List.flatten_cons, List.append_assoc, List.drop_left]
      exact i2 k x rest (by simpa using hk)

theorem mem_ravel {α : Type} {P : α → Prop} : ∀ {shape : List Nat} {val : List Nat → α}, (∀ i, InBounds shape i → P (val i)) → ∀ x ∈ ravel shape val, P x
  | [], val, h, x, hx => by
    have : x = val [] := by simpa [ravel] using hx
    subst this
    exact h _ .nil
  | n :: ns, val, h, x, hx => by
    unfold ravel at hx
    obtain ⟨i, hi, hx⟩ := List.mem_flatMap.1 hx
    exact mem_ravel (fun is his => h _ (.cons (by simpa using hi) his)) x hx

theorem frame_length {px : List Nat → Nat} {footer : Bytes} (h : footer.length = 4 * 2 * 128) : (frame px footer).length = 4 * 130 * 128 := by
  unfold frame
  have := (flatten_piece (b := 4) (L := ravel [128, 128] fun rc => leBytes 4 (px rc)) (mem_ravel fun i _ => by simp)).1
  rw [List.length_append, this, length_ravel, h]
  decide

/-- A frame of the raw file. -/
theorem rawFile_frame {nav : List Nat} {px : List Nat → List Nat → Nat} {footer : List Nat → Bytes} {rest : Bytes} (hf : ∀ i, InBounds nav i → (footer i).length = 4 * 2 * 128)
    {i : List Nat} (hi : InBounds nav i) :
    chunk (rawFile nav px footer rest) (flatIndex nav i * (4 * 130 * 128)) (4 * 130 * 128) = frame (px i) (footer i) :=
  (flatten_piece (mem_ravel fun j hj => frame_length (hf j hj))).2 _ _ _ (ravel_getElem _ hi)

theorem rawFile_length {nav : List Nat} {px : List Nat → List Nat → Nat} {footer : List Nat → Bytes} {rest : Bytes} (hf : ∀ i, InBounds nav i → (footer i).length = 4 * 2 * 128) :
    (rawFile nav px footer rest).length = size nav * (4 * 130 * 128) + rest.length := by
  unfold rawFile
  rw [List.length_append, (flatten_piece (b := 4 * 130 * 128) (mem_ravel fun j hj => frame_length (hf j hj))).1, length_ravel]

theorem pixel_read {nav : List Nat} {px : List Nat → List Nat → Nat} {footer : List Nat → Bytes} {rest : Bytes} (hf : ∀ i, InBounds nav i → (footer i).length = 4 * 2 * 128)
    (hpx : ∀ i rc, px i rc < 2 ^ 32) {i : List Nat} (hi : InBounds nav i) {r c : Nat} (hr : r < 128) (hc : c < 128) :
    pixelAt (rawFile nav px footer rest) [flatIndex nav i, r, c] = px i [r, c] := by
  have h1 := rawFile_frame (px := px) (rest := rest) hf hi
  unfold pixelAt
  dsimp only
  unfold chunk at h1 ⊢
  rw [take_sub (B := 4 * 130 * 128) (by omega), h1]
  unfold frame
  have h2 := (flatten_piece (b := 4) (L := ravel [128, 128] fun rc => leBytes 4 (px i rc)) (mem_ravel fun i _ => by simp)).2 (r * 128 + c) (leBytes 4 (px i [r, c])) (footer i) (by
    have := ravel_getElem (shape := [128, 128]) (idx := [r, c]) (fun rc => leBytes 4 (px i rc)) (.cons hr (.cons hc .nil))
    simpa [flatIndex, size] using this)
  rw [show 4 * (r * 128 + c) = (r * 128 + c) * 4 by omega, h2, leVal_leBytes (by have := hpx i [r, c]; simpa using this)]

theorem flatIndex_append : ∀ {A B i j : List Nat}, InBounds A i → InBounds B j → flatIndex (A ++ B) (i ++ j) = flatIndex A i * size B + flatIndex B j
  | _, _, _, _, .nil, _ => by simp [flatIndex]
  | n :: A, B, a :: i, j, .cons h t, hj => by
    have hs : ∀ A B : List Nat, size (A ++ B) = size A * size B := by
      intro A B
      induction A with
      | nil => simp [size]
      | cons n A ih => simp [size, ih, Nat.mul_assoc]
    rw [List.cons_append, List.cons_append, flatIndex, flatIndex, flatIndex_append t hj, hs]
    ring

/-- The data of the raw file. -/
theorem data_read {nav : List Nat} {px : List Nat → List Nat → Nat} {footer : List Nat → Bytes} {rest : Bytes} (hf : ∀ i, InBounds nav i → (footer i).length = 4 * 2 * 128)
    (hpx : ∀ i rc, px i rc < 2 ^ 32) : ∃ d, readRaw (rawFile nav px footer rest) (size nav) = .ok d ∧ d.length = size (nav ++ [128, 128]) ∧
    ∀ i r c, InBounds nav i → r < 128 → c < 128 → d[flatIndex (nav ++ [128, 128]) (i ++ [r, c])]? = some (px i [r, c]) := by
  refine ⟨ravel [size nav, 128, 128] (pixelAt (rawFile nav px footer rest)), ?_, ?_, ?_⟩
  · unfold readRaw
    rw [if_neg]
    rw [rawFile_length hf, not_lt, Nat.le_div_iff_mul_le (by decide)]
    omega
  · rw [length_ravel]
    clear hf hpx px footer
    induction nav with
    | nil => rfl
    | cons n nav ih => simp only [List.cons_append, size] at ih ⊢; rw [← ih]; ring
  · intro i r c hi hr hc
    rw [flatIndex_append hi (.cons hr (.cons hc .nil)), ← pixel_read (rest := rest) hf hpx hi hr hc]
    have hb : InBounds [size nav, 128, 128] [flatIndex nav i, r, c] := .cons (flatIndex_lt hi) (.cons hr (.cons hc .nil))
    rw [← ravel_getElem _ hb]
    simp only [flatIndex, size]

theorem splitChar_cat (c : Char) : ∀ a t : Text, splitChar c (a ++ c :: t) = splitChar c a ++ splitChar c t
  | [], t => by simp [splitChar]
  | x :: a, t => by
    have ih := splitChar_cat c a t
    by_cases h : x = c
    · rw [List.cons_append, splitChar, if_pos h, splitChar, if_pos h, ih, List.cons_append]
    · rw [List.cons_append, splitChar, if_neg h, splitChar, if_neg h, ih]
      cases hs : splitChar c a with
      | nil => exact absurd hs (splitChar_ne_nil c a)
      | cons p ps => rfl

theorem dec_no {c : Char} (hc : isDigit c = false) (n : Nat) : c ∉ decChars n := fun h => by
  rw [decChars_digits n _ h] at hc
  exact absurd hc (by decide)

theorem fromName_ok {x y : Nat} {p ext : Text} (hp : '.' ∉ p) (hs : "scan_".toList <+: p ++ ['_']) :
    fromName (p ++ '_' :: 'x' :: (decChars x ++ '_' :: 'y' :: (decChars y ++ '.' :: ext))) = .ok (.grid x y) := by
  unfold fromName
  have h1 : "scan_".toList.isPrefixOf (p ++ '_' :: 'x' :: (decChars x ++ '_' :: 'y' :: (decChars y ++ '.' :: ext))) = true := by
    rw [List.isPrefixOf_iff_prefix]
    refine hs.trans ⟨'x' :: (decChars x ++ '_' :: 'y' :: (decChars y ++ '.' :: ext)), by simp⟩
  rw [if_pos h1]
  have hd : splitChar '.' (p ++ '_' :: 'x' :: (decChars x ++ '_' :: 'y' :: (decChars y ++ '.' :: ext))) =
      (p ++ '_' :: 'x' :: (decChars x ++ '_' :: 'y' :: decChars y)) :: splitChar '.' ext := by
    rw [← splitChar_append (s := p ++ '_' :: 'x' :: (decChars x ++ '_' :: 'y' :: decChars y))]
    · simp
    · have hx := dec_no (c := '.') (by decide) x
      have hy := dec_no (c := '.') (by decide) y
      simp [hp, hx, hy]
  rw [hd, List.headD_cons, splitChar_cat, ← List.cons_append, splitChar_append, splitChar_none (s := 'y' :: decChars y)]
  · rw [List.reverse_append]
    have e : ['x' :: decChars x, 'y' :: decChars y].reverse = ['y' :: decChars y, 'x' :: decChars x] := rfl
    rw [e]
    simp only [List.cons_append, List.drop_one, List.tail_cons, intLit_dec]
  · have := dec_no (c := '_') (by decide) y
    simp [this]
  · have := dec_no (c := '_') (by decide) x
    simp [this]

/-- The scan of the XML file, with the names and lengths of its axes. -/
def Names : Scan → List (String × Nat) → Prop
  | .series n, nav => ∃ m : Nat, n = m ∧ nav = [("series_count", m)]
  | .grid x y, nav => ∃ a b : Nat, x = a ∧ y = b ∧ nav = [("scan_y", b), ("scan_x", a)]
  | .unknown, _ => False

theorem parse_ok {om : Om} {nav : List (String × Nat)} (h : Described om nav) : ∃ s, parseXml om = .ok s ∧ Names s nav := by
  unfold parseXml
  cases h with
  | series n raw h1 h2 =>
    rw [h1, h2]
    dsimp only
    rw [intLit_dec]
    exact ⟨.series n, rfl, n, rfl, rfl⟩
  | entries x y raw h1 h2 h3 h4 =>
    rw [h1, h2, h3, h4]
    dsimp only
    rw [intLit_dec, intLit_dec]
    exact ⟨.grid x y, rfl, x, y, rfl, rfl, rfl⟩
  | name x y p ext hp hs h1 h2 h3 =>
    rw [h1, h2]
    dsimp only
    rw [fromName_ok hp hs]
    refine ⟨.grid x y, ?_, x, y, rfl, rfl, rfl⟩
    split
    · next a b => rcases h3 with h3 | h3 <;> simp_all
    · rfl

theorem names_shape {s : Scan} {nav : List (String × Nat)} (h : Names s nav) : navShape s = nav.map fun e => (e.2 : Int) := by
  cases s with
  | series n => obtain ⟨m, rfl, rfl⟩ := h; rfl
  | grid x y => obtain ⟨a, b, rfl, rfl, rfl⟩ := h; rfl
  | unknown => exact h.elim

theorem shape_nat {s : Scan} {nav : List (String × Nat)} (h : Names s nav) : (navShape s).map Int.toNat = nav.map (·.2) ∧ (navShape s).any (· < 0) = false := by
  rw [names_shape h]
  constructor
  · simp
  · rw [List.any_eq_false]
    intro i hi
    obtain ⟨e, _, rfl⟩ := List.mem_map.1 hi
    simp

theorem axesFrom_index : ∀ (k : Nat) (rs : List Row), (axesFrom k rs).map Axis.index = (List.range (axesFrom k rs).length).map (k + ·)
  | k, [] => rfl
  | k, r :: rs => by
    unfold axesFrom
    split
    · rw [List.map_cons, axesFrom_index (k + 1) rs, List.length_cons, List.range_succ_eq_map]
      simp [Function.comp_def, Nat.add_assoc, Nat.add_comm, Nat.add_left_comm]
    · exact axesFrom_index k rs

theorem axesFrom_rows : ∀ (k : Nat) (rs : List Row), (axesFrom k rs).map (fun a => (a.name, a.size, a.navigate)) = (rs.map fun r => (r.name, r.size, r.navigate)).filter fun e => e.2.1 > 1
  | k, [] => rfl
  | k, r :: rs => by
    unfold axesFrom
    rw [List.map_cons, List.filter_cons]
    split
    · next h => rw [if_pos (by simpa using h), List.map_cons, axesFrom_rows]
    · next h => rw [if_neg (by simpa using h), axesFrom_rows]

theorem axesFrom_mem : ∀ {k : Nat} {rs : List Row} {a : Axis}, a ∈ axesFrom k rs → ∃ r ∈ rs, a.name = r.name ∧ a.size = r.size ∧ a.scale = r.scale ∧ a.units = r.units ∧
    a.offset = r.origin * r.scale ∧ a.navigate = r.navigate
  | k, [], a, h => by simp [axesFrom] at h
  | k, r :: rs, a, h => by
    unfold axesFrom at h
    split at h
    · rcases List.mem_cons.1 h with rfl | h
      · exact ⟨r, List.mem_cons_self .., rfl, rfl, rfl, rfl, rfl, rfl⟩
      · obtain ⟨r', hr', h'⟩ := axesFrom_mem h
        exact ⟨r', List.mem_cons_of_mem _ hr', h'⟩
    · obtain ⟨r', hr', h'⟩ := axesFrom_mem h
      exact ⟨r', List.mem_cons_of_mem _ hr', h'⟩

theorem convertScale_eq (compact : Rat → Int) {v f : Rat} (hf : f ≠ 0) : ∃ s p, convertScale compact v f = (s, .metre p) ∧ s * (10 : Rat) ^ p = v := by
  refine ⟨_, _, rfl, ?_⟩
  have h10 : ((10 : Rat) ^ compact (f * v)) ≠ 0 := zpow_ne_zero _ (by norm_num)
  field_simp

theorem oldScale_ok {lib : Lib} {fov : Rat} {size : Int} (h : size ≠ 0) : ∃ s p, oldScale lib fov size = .ok (s, .metre p) ∧ s * (10 : Rat) ^ p * size = fov := by
  have hz : (size : Rat) ≠ 0 := by exact_mod_cast h
  obtain ⟨s, p, e1, e2⟩ := convertScale_eq lib.compact (v := fov / size) hz
  refine ⟨s, p, by rw [oldScale, if_neg h, e1], ?_⟩
  rw [e2]
  field_simp

theorem oldScale_zero {lib : Lib} {fov : Rat} {size : Int} {r : Rat × U} (h : oldScale lib fov size = .ok r) : size ≠ 0 := by
  intro e
  rw [oldScale, if_pos e] at h
  exact absurd h (by simp)

theorem navScales_loads {lib : Lib} {om : Om} (hr : Readable lib om) {y x : Int} (hy : 0 < y) (hx : 0 < x) : ∃ l, navScales lib om y x = .ok l := by
  unfold navScales
  cases h1 : om "root.iom_measurements.optics.get_full_scan_field_of_view" with
  | some t =>
    dsimp only
    obtain ⟨v, hv⟩ := hr.pair t h1
    obtain ⟨s, p, e, _⟩ := oldScale_ok (lib := lib) (fov := v.1) (size := y) (by omega)
    obtain ⟨s', p', e', _⟩ := oldScale_ok (lib := lib) (fov := v.2) (size := x) (by omega)
    simp only [hv, e, e', bind, Except.bind]
    exact ⟨_, rfl⟩
  | none =>
    dsimp only
    cases h2 : om "root.iom_measurements.full_scan_field_of_view.x" with
    | none => exact ⟨_, rfl⟩
    | some t =>
      cases h3 : om "root.iom_measurements.full_scan_field_of_view.scale_factor" with
      | none => exact ⟨_, rfl⟩
      | some s =>
        dsimp only
        obtain ⟨u, hu⟩ := hr.fov t h2
        obtain ⟨f, hf, hf0⟩ := hr.factor s h3
        simp only [hu, hf, bind, Except.bind]
        rw [if_neg (by push Not; exact ⟨hf0, by omega⟩)]
        exact ⟨_, rfl⟩

theorem navScales_spec {lib : Lib} {om : Om} {y x : Int} {l : List (Rat × U)} (h : navScales lib om y x = .ok l) : ∃ sy sx, l = [sy, sx] ∧ NavScale lib om y x sy sx := by
  unfold navScales at h
  cases h1 : om "root.iom_measurements.optics.get_full_scan_field_of_view" with
  | some t =>
    rw [h1] at h
    dsimp only at h
    cases hv : lib.pair t with
    | error e => rw [hv] at h; exact absurd h (by simp [bind, Except.bind])
    | ok v =>
      simp only [hv, bind, Except.bind] at h
      cases ha : oldScale lib v.1 y with
      | error e => rw [ha] at h; exact absurd h (by simp)
      | ok a =>
        cases hb : oldScale lib v.2 x with
        | error e => rw [ha, hb] at h; exact absurd h (by simp)
        | ok b =>
          rw [ha, hb] at h
          simp only [Except.ok.injEq] at h
          obtain ⟨s, p, e, e2⟩ := oldScale_ok (lib := lib) (fov := v.1) (oldScale_zero ha)
          obtain ⟨s', p', e', e2'⟩ := oldScale_ok (lib := lib) (fov := v.2) (oldScale_zero hb)
          rw [ha] at e
          rw [hb] at e'
          simp only [Except.ok.injEq] at e e'
          refine ⟨a, b, h.symm, ?_, ?_, ?_⟩
          · intro t' u w ht' hw
            rw [h1] at ht'
            simp only [Option.some.injEq] at ht'
            subst ht'
            rw [hv] at hw
            simp only [Except.ok.injEq] at hw
            subst hw
            rw [e, e']
            exact ⟨⟨p, rfl, e2⟩, p', rfl, e2'⟩
          · intro _ _ _ _ hn; rw [h1] at hn; exact absurd hn (by simp)
          · intro hn; rw [h1] at hn; exact absurd hn (by simp)
  | none =>
    rw [h1] at h
    dsimp only at h
    cases h2 : om "root.iom_measurements.full_scan_field_of_view.x" with
    | none =>
      rw [h2] at h
      simp only [Except.ok.injEq] at h
      refine ⟨_, _, h.symm, ?_, ?_, fun _ _ => ⟨rfl, rfl⟩⟩
      · intro _ _ _ hn; rw [h1] at hn; exact absurd hn (by simp)
      · intro _ _ _ _ _ hn; rw [h2] at hn; exact absurd hn (by simp)
    | some t =>
      cases h3 : om "root.iom_measurements.full_scan_field_of_view.scale_factor" with
      | none =>
        rw [h2, h3] at h
        simp only [Except.ok.injEq] at h
        refine ⟨_, _, h.symm, ?_, ?_, fun _ _ => ⟨rfl, rfl⟩⟩
        · intro _ _ _ hn; rw [h1] at hn; exact absurd hn (by simp)
        · intro _ _ _ _ _ _ hn; rw [h3] at hn; exact absurd hn (by simp)
      | some s =>
        rw [h2, h3] at h
        dsimp only at h
        cases hu : lib.num t with
        | error e => rw [hu] at h; exact absurd h (by simp [bind, Except.bind])
        | ok u =>
          cases hf : lib.num s with
          | error e => rw [hu, hf] at h; exact absurd h (by simp [bind, Except.bind])
          | ok f =>
            simp only [hu, hf, bind, Except.bind] at h
            split at h
            · exact absurd h (by simp)
            next hz =>
            push Not at hz
            obtain ⟨sc, p, e1, e2⟩ := convertScale_eq lib.compact (v := u / f / (max y x : Int)) (f := 1) (by norm_num)
            simp only [e1, Except.ok.injEq] at h
            refine ⟨_, _, h.symm, ?_, ?_, ?_⟩
            · intro _ _ _ hn; rw [h1] at hn; exact absurd hn (by simp)
            · intro t' s' u' f' _ ht hs hu' hf'
              rw [h2] at ht
              rw [h3] at hs
              simp only [Option.some.injEq] at ht hs
              subst ht hs
              rw [hu] at hu'
              rw [hf] at hf'
              simp only [Except.ok.injEq] at hu' hf'
              subst hu' hf'
              refine ⟨rfl, p, rfl, ?_⟩
              have hm : ((max y x : Int) : Rat) ≠ 0 := by exact_mod_cast hz.2
              dsimp only
              rw [e2]
              field_simp
            · intro _ hn; rcases hn with hn | hn
              · rw [h2] at hn; exact absurd hn (by simp)
              · rw [h3] at hn; exact absurd hn (by simp)

end Verif.Empad
