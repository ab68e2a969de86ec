import Verif.Spec.RenishawMeta
import Verif.Props.RenishawData
import Mathlib.Tactic.IntervalCases
/-! C159-C161: metadata of `.wdf` files. -/
namespace Verif.Props.RenishawMeta
open Verif Verif.Renishaw Verif.Spec.Renishaw Verif.Lemmas.Renishaw Verif.Props.Renishaw Verif.Spec.RenishawMeta

/-! ### The calendar -/

theorem leap_iff (y : Nat) : leapYear y = true ↔ Leap y := by
  unfold leapYear Leap
  rw [Bool.and_eq_true, Bool.or_eq_true, beq_iff_eq, bne_iff_ne, beq_iff_eq]
  omega

theorem leap_ite {α : Type} (y : Nat) (a b : α) : (if leapYear y then a else b) = if Leap y then a else b := by
  by_cases h : Leap y
  · rw [if_pos h, if_pos ((leap_iff y).mpr h)]
  · rw [if_neg h, if_neg (fun e => h ((leap_iff y).mp e))]

theorem before_succ {y : Nat} (h : 1601 ≤ y) : before (y + 1) = before y + if Leap y then 366 else 365 := by
  by_cases hl : Leap y
  · rw [if_pos hl]
    unfold Leap at hl
    unfold before
    omega
  · rw [if_neg hl]
    unfold Leap at hl
    unfold before
    omega

theorem before_mono {y : Nat} (h : 1601 ≤ y) (j : Nat) : before y ≤ before (y + j) := by
  induction j with
  | zero => exact Nat.le_refl _
  | succ j ih => rw [← Nat.add_assoc, before_succ (by omega)]; omega

theorem walk_years {n k : Nat} : ∀ (fuel y : Nat), 1601 ≤ y → n < (if Leap (y + k) then 366 else 365) → before (y + k) - before y + n ≤ fuel →
    walkYears fuel y (before (y + k) - before y + n) = (y + k, n) := by
  induction k with
  | zero =>
    intro fuel y hy hn hf
    rw [Nat.add_zero] at hn
    rw [Nat.add_zero, Nat.sub_self, Nat.zero_add]
    cases fuel with
    | zero => rw [walkYears]
    | succ fuel => rw [walkYears, leap_ite, if_pos hn]
  | succ k ih =>
    intro fuel y hy hn hf
    have h1 := before_succ hy
    have h2 := before_mono (y := y + 1) (by omega) k
    have e : y + (k + 1) = y + 1 + k := by omega
    rw [e] at hn hf ⊢
    obtain ⟨len, hlen⟩ : ∃ len, len = (if Leap y then 366 else 365) := ⟨_, rfl⟩
    have hpos : 0 < len := by rw [hlen]; split <;> omega
    rw [← hlen] at h1
    cases fuel with
    | zero => omega
    | succ fuel =>
      rw [walkYears, leap_ite, ← hlen, if_neg (by omega)]
      have e : before (y + 1 + k) - before y + n - len = before (y + 1 + k) - before (y + 1) + n := by omega
      rw [e]
      exact ih fuel (y + 1) (by omega) hn (by omega)

theorem lengths_eq (y : Nat) : monthLengths y = (List.range 12).map fun i => days y (i + 1) := by
  unfold monthLengths
  rw [leap_ite]
  rfl

theorem walk_months {n : Nat} : ∀ (k : Nat) (ls : List Nat) (m : Nat) (hk : k < ls.length), n < ls[k] →
    walkMonths ls m ((ls.take k).sum + n) = (m + k, n + 1)
  | 0, l :: ls, m, _, hn => by
    rw [walkMonths, if_pos (by simpa using hn)]
    simp
  | k + 1, l :: ls, m, hk, hn => by
    rw [walkMonths, if_neg (by rw [List.take_succ_cons, List.sum_cons]; omega), List.take_succ_cons, List.sum_cons,
      show l + (ls.take k).sum + n - l = (ls.take k).sum + n by omega,
      walk_months k ls (m + 1) (by simpa using hk) (by simpa using hn), show m + 1 + k = m + (k + 1) by omega]

theorem year_len (y : Nat) : (((List.range 12).map fun i => days y (i + 1)).sum = if Leap y then 366 else 365) := by
  by_cases h : Leap y
  · rw [if_pos h]; simp [List.range_succ, days, h]
  · rw [if_neg h]; simp [List.range_succ, days, h]

theorem months_bound {y m d : Nat} (hm : 1 ≤ m ∧ m ≤ 12) (hd : 1 ≤ d ∧ d ≤ days y m) :
    ((List.range (m - 1)).map fun i => days y (i + 1)).sum + (d - 1) < if Leap y then 366 else 365 := by
  rw [← year_len]
  obtain ⟨h1, h2⟩ := hm
  have e : List.range 12 = List.range (m - 1) ++ (m - 1) :: (List.range (12 - m)).map (fun i => m + i) := by
    interval_cases m <;> decide
  rw [e, List.map_append, List.sum_append, List.map_cons, List.sum_cons, show m - 1 + 1 = m by omega]
  omega

/-- The text of a date. -/
theorem windows_ok {micro : Nat → Nat} {t : Nat} {c : Moment} (hv : c.Valid) (hs : micro t / 1000000 = c.seconds) :
    windowsTime micro t = .ok (c.date ++ '#' :: c.time) := by
  obtain ⟨hy, hm, hd, hh, hi, hse⟩ := hv
  have hb := months_bound hm hd
  unfold windowsTime
  dsimp only
  rw [hs]
  set M := ((List.range (c.month - 1)).map fun i => days c.year (i + 1)).sum with hM
  have hday : c.seconds / 86400 = before c.year + (M + (c.day - 1)) := by unfold Moment.seconds; rw [← hM]; omega
  have hq : c.seconds = 86400 * (before c.year + M + (c.day - 1)) + 3600 * c.hour + 60 * c.minute + c.second := rfl
  have e0 : before 1601 = 0 := by decide
  have ew := walk_years (n := M + (c.day - 1)) (k := c.year - 1601) (before c.year + (M + (c.day - 1))) 1601 (by omega)
    (by rw [show 1601 + (c.year - 1601) = c.year by omega]; exact hb) (by rw [show 1601 + (c.year - 1601) = c.year by omega]; omega)
  rw [show 1601 + (c.year - 1601) = c.year by omega, e0, Nat.sub_zero] at ew
  have em : walkMonths (monthLengths c.year) 1 (M + (c.day - 1)) = (c.month, c.day) := by
    have hlen : (monthLengths c.year).length = 12 := rfl
    have htake : ((monthLengths c.year).take (c.month - 1)).sum = M := by
      rw [hM, lengths_eq, ← List.map_take, List.take_range, Nat.min_eq_left (by omega)]
    have hget : (monthLengths c.year)[c.month - 1]'(by rw [hlen]; omega) = days c.year c.month := by
      simp only [lengths_eq, List.getElem_map, List.getElem_range]
      rw [show c.month - 1 + 1 = c.month by omega]
    have := walk_months (n := c.day - 1) (c.month - 1) (monthLengths c.year) 1 (by rw [hlen]; omega) (by rw [hget]; omega)
    rw [htake, show 1 + (c.month - 1) = c.month by omega, show c.day - 1 + 1 = c.day by omega] at this
    exact this
  rw [hday, ew]
  dsimp only
  rw [em]
  dsimp only
  rw [if_neg (by omega)]
  have h1 : c.seconds / 3600 % 24 = c.hour := by omega
  have h2 : c.seconds / 60 % 60 = c.minute := by omega
  have h3 : c.seconds % 60 = c.second := by omega
  rw [h1, h2, h3]
  rfl

theorem digit_no {n : Nat} : digit n ≠ '#' := by
  unfold digit
  have : n % 10 < 10 := Nat.mod_lt _ (by omega)
  generalize n % 10 = k at this
  interval_cases k <;> decide

theorem date_no (c : Moment) : '#' ∉ c.date := by
  unfold Moment.date
  simp [digit_no.symm]

theorem time_no (c : Moment) : '#' ∉ c.time := by
  unfold Moment.time
  simp [digit_no.symm]

/-- Seconds of a time in a file. -/
theorem close_seconds {micro : Nat → Nat} (hm : Close micro) {t s frac : Nat} (ht : t = 10000000 * s + frac) (hl : t < 2 ^ 57)
    (hf : frac = 0 ∨ 20 ≤ frac ∧ frac + 20 < 10000000) : micro t / 1000000 = s := by
  rcases hf with rfl | hf
  · rw [ht, Nat.add_zero, hm.whole s (by omega)]
    omega
  · have := hm.above t hl
    have := hm.below t hl
    omega

/-! ### Files -/

theorem file_parts {rounds : Nat} {micro : Nat → Nat} {name : Text} {l : Bool} {f : Bytes} {extra : Option Dict} {md : Metadata} {bs : List Block}
    (h : Wdf f bs) (hr : bs.length < rounds) (hread : fileMetadata rounds micro name l f extra = some (.ok md)) :
    ∃ ht m, readHeadText micro f (place 0 bs []) = .ok ht ∧ readMeta f (place 0 bs []) = .ok m ∧ mapMetadata name l ht m.1 extra = .ok md := by
  unfold fileMetadata at hread
  rw [wdf_locate h rounds hr] at hread
  injection hread with hread
  replace hread : (readHeadText micro f (place 0 bs []) >>= fun ht => readMeta f (place 0 bs []) >>= fun m => mapMetadata name l ht m.1 extra) = .ok md := hread
  obtain ⟨ht, h1, hread⟩ := bind_ok.mp hread
  obtain ⟨m, h2, h3⟩ := bind_ok.mp hread
  exact ⟨ht, m, h1, h2, h3⟩

theorem map_parts {name : Text} {l : Bool} {ht : HeadText} {om : List (Text × Dict)} {extra : Option Dict} {md : Metadata}
    (h : mapMetadata name l ht om extra = .ok md) :
    generalMeta name ht = .ok md.general ∧ md.signal = signalMeta l ht ∧ detectorMeta om extra = .ok md.detector ∧ laserMeta om = .ok md.laser ∧
      gratingMeta om = .ok md.grating := by
  unfold mapMetadata at h
  obtain ⟨g, h1, h⟩ := bind_ok.mp h
  obtain ⟨d, h2, h⟩ := bind_ok.mp h
  obtain ⟨la, h3, h⟩ := bind_ok.mp h
  obtain ⟨gr, h4, h⟩ := bind_ok.mp h
  injection h with h
  rw [← h]
  exact ⟨h1, rfl, h2, h3, h4⟩

theorem head_parts {micro : Nat → Nat} {f : Bytes} {blocks : Blocks} {hdr : Bytes} {ht : HeadText} (hf : Found f blocks "WDF1_1".toList hdr) (hl : 384 ≤ hdr.length)
    (h : readHeadText micro f blocks = .ok ht) :
    windowsTime micro (num hdr 120 8) = .ok ht.start ∧ windowsTime micro (num hdr 128 8) = .ok ht.finish ∧ ht.unit = unitEnum (num hdr 136 4) ∧
      decode ((hdr.drop 192).take 32) = .ok ht.user ∧ decode ((hdr.drop 224).take 160) = .ok ht.title := by
  obtain ⟨p, g1, g2⟩ := hf
  unfold readHeadText at h
  rw [g1] at h
  dsimp only at h
  rw [g2.number (o := 120) (w := 8) (by omega), g2.number (o := 128) (w := 8) (by omega), g2.number (o := 136) (w := 4) (by omega),
    g2.chunk (o := 192) (w := 32) (by omega), g2.chunk (o := 224) (w := 160) (by omega)] at h
  obtain ⟨t0, e0, h⟩ := bind_ok.mp h
  obtain ⟨t1, e1, h⟩ := bind_ok.mp h
  injection e0 with e0
  injection e1 with e1
  subst e0 e1
  obtain ⟨s, h1, h⟩ := bind_ok.mp h
  obtain ⟨e, h2, h⟩ := bind_ok.mp h
  obtain ⟨u, e2, h⟩ := bind_ok.mp h
  injection e2 with e2
  subst e2
  obtain ⟨a, h3, h⟩ := bind_ok.mp h
  obtain ⟨b, h4, h⟩ := bind_ok.mp h
  injection h with h
  rw [← h]
  exact ⟨h1, h2, rfl, h3, h4⟩

theorem general_parts {name : Text} {ht : HeadText} {g : General} (h : generalMeta name ht = .ok g) :
    splitChar '#' ht.start = [g.date, g.time] ∧ g.title = ht.title ∧ g.filename = (splitChar '/' name).getLastD [] := by
  unfold generalMeta at h
  split at h
  · rename_i d t e
    injection h with h
    rw [← h]
    exact ⟨e, rfl, rfl⟩
  · cases h

/-! ### C159: header -/

/-- **C159, date.** Date and time of a measurement are those of its start in the header (a number of intervals of 100 ns since 1601), without the fraction of
the second. What is missing: fractions within two microseconds of a full second, see `C159_fails_second`, and dates after 2057, for which floating-point arithmetic is less accurate. -/
theorem C159_date_partial {rounds : Nat} {micro : Nat → Nat} {name : Text} {l : Bool} {f hdr : Bytes} {extra : Option Dict} {md : Metadata} {bs : List Block}
    (hm : Close micro) (h : Wdf f bs) (hr : bs.length < rounds) (hb : Has bs "WDF1" 1 hdr) (hl : 384 ≤ hdr.length)
    (hread : fileMetadata rounds micro name l f extra = some (.ok md))
    {c : Moment} (hv : c.Valid) {frac : Nat} (ht : num hdr 120 8 = 10000000 * c.seconds + frac) (hlt : num hdr 120 8 < 2 ^ 57)
    (hf : frac = 0 ∨ 20 ≤ frac ∧ frac + 20 < 10000000) : md.general.date = c.date ∧ md.general.time = c.time := by
  obtain ⟨hd, m, h1, _, h3⟩ := file_parts h hr hread
  obtain ⟨g1, _⟩ := map_parts h3
  obtain ⟨e1, _⟩ := general_parts g1
  obtain ⟨w1, _⟩ := head_parts (has_found h hb (by decide)) hl h1
  rw [windows_ok hv (close_seconds hm ht hlt hf)] at w1
  injection w1 with w1
  rw [← w1, splitChar_append (date_no c), splitChar_none (time_no c)] at e1
  injection e1 with e1 e2
  injection e2 with e2
  exact ⟨e1.symm, e2.symm⟩

/-- **C159, title, name of the file and quantity.** -/
theorem C159_texts {rounds : Nat} {micro : Nat → Nat} {name : Text} {l : Bool} {f hdr : Bytes} {extra : Option Dict} {md : Metadata} {bs : List Block}
    (h : Wdf f bs) (hr : bs.length < rounds) (hb : Has bs "WDF1" 1 hdr) (hl : 384 ≤ hdr.length)
    (hread : fileMetadata rounds micro name l f extra = some (.ok md)) :
    md.general.title = chars ((hdr.drop 224).take 160) ∧
    (∀ dir base : Text, '/' ∉ base → name = base ∨ name = dir ++ '/' :: base → md.general.filename = base) ∧
    (∀ q, quantities[num hdr 136 4]? = some q → md.signal.2 = "Intensity (".toList ++ q.toList ++ ")".toList) ∧
    (26 ≤ num hdr 136 4 → md.signal.2 = "Intensity (Unknown)".toList) ∧
    md.signal.1 = if l then "Luminescence".toList else [] := by
  obtain ⟨hd, m, h1, _, h3⟩ := file_parts h hr hread
  obtain ⟨g1, g2, _⟩ := map_parts h3
  obtain ⟨_, e2, e3⟩ := general_parts g1
  obtain ⟨_, _, w3, _, w5⟩ := head_parts (has_found h hb (by decide)) hl h1
  refine ⟨?_, ?_, ?_, ?_, ?_⟩
  · rw [e2]
    unfold decode at w5
    split at w5
    · injection w5 with w5
      rw [← w5]
      unfold chars
      rfl
    · cases w5
  · intro dir base hbase hn
    rw [e3]
    rcases hn with rfl | rfl
    · rw [splitChar_none hbase]; rfl
    · have key : ∀ t : Text, (splitChar '/' (t ++ '/' :: base)).getLastD [] = base := by
        intro t
        induction t with
        | nil => rw [List.nil_append, splitChar, if_pos rfl, splitChar_none hbase]; rfl
        | cons a t ih =>
          rw [List.cons_append, splitChar]
          split
          · cases hs : splitChar '/' (t ++ '/' :: base) with
            | nil => exact absurd hs (splitChar_ne_nil _ _)
            | cons x xs => rw [hs] at ih; exact ih
          · have h2 : 2 ≤ (splitChar '/' (t ++ '/' :: base)).length := by
              clear ih
              induction t with
              | nil => rw [List.nil_append, splitChar, if_pos rfl, splitChar_none hbase]; exact Nat.le_refl _
              | cons b t ih =>
                rw [List.cons_append, splitChar]
                split
                · simp only [List.length_cons]; omega
                · cases hs : splitChar '/' (t ++ '/' :: base) with
                  | nil => exact absurd hs (splitChar_ne_nil _ _)
                  | cons x xs => rw [hs] at ih; simpa using ih
            cases hs : splitChar '/' (t ++ '/' :: base) with
            | nil => exact absurd hs (splitChar_ne_nil _ _)
            | cons x xs =>
              rw [hs] at ih h2
              cases xs with
              | nil => simp at h2
              | cons y ys => exact ih
      exact key dir
  · intro q hq
    rw [g2]
    show "Intensity (".toList ++ capitalize hd.unit ++ [')'] = _
    rw [w3]
    have hlt : num hdr 136 4 < 26 := by
      have := (List.getElem?_eq_some_iff.mp hq).1
      exact this
    generalize num hdr 136 4 = n at hq hlt
    have : capitalize (unitEnum n) = q.toList := by
      interval_cases n <;> (injection hq with hq; subst hq; decide +kernel)
    rw [this]
    rfl
  · intro hn
    rw [g2]
    show "Intensity (".toList ++ capitalize hd.unit ++ [')'] = _
    rw [w3]
    have : unitEnum (num hdr 136 4) = "Unknown".toList := by
      unfold unitEnum
      rw [List.getD_eq_getElem?_getD, List.getElem?_eq_none (by exact hn)]; rfl
    rw [this]
    decide
  · rw [g2]
    rfl

/-! ### C160: laser, grating and detector -/

theorem leaf_one {k name : Text} {v x : Val} (h : ∀ d, x ≠ .nested d) : v ∈ (if k = name then [x] else []) ↔ Leaf [(k, x)] name v := by
  constructor
  · intro hv
    split at hv
    · rename_i hk
      rw [List.mem_singleton] at hv
      subst hv hk
      exact .here (List.mem_singleton.mpr rfl) h
    · exact absurd hv (List.not_mem_nil)
  · intro hv
    cases hv with
    | here h1 h2 =>
      rw [List.mem_singleton, Prod.mk.injEq] at h1
      rw [if_pos h1.1.symm, h1.2]
      exact List.mem_singleton.mpr rfl
    | deep h1 h2 =>
      rw [List.mem_singleton, Prod.mk.injEq] at h1
      exact absurd h1.2.symm (h _)

mutual
theorem findAll_iff {name : Text} {v : Val} : ∀ d : List (Text × Val), v ∈ findAll name d ↔ Leaf d name v
  | [] => by
    rw [findAll]
    refine ⟨fun h => absurd h (List.not_mem_nil), fun h => ?_⟩
    cases h with
    | here h _ => exact absurd h (List.not_mem_nil)
    | deep h _ => exact absurd h (List.not_mem_nil)
  | e :: d => by
    rw [findAll, List.mem_append, findEntry_iff e, findAll_iff d]
    constructor
    · rintro (h | h)
      · cases h with
        | here h1 h2 => rw [List.mem_singleton] at h1; exact .here (h1 ▸ List.mem_cons_self ..) h2
        | deep h1 h2 => rw [List.mem_singleton] at h1; subst h1; exact .deep (List.mem_cons_self ..) h2
      · cases h with
        | here h1 h2 => exact .here (List.mem_cons_of_mem _ h1) h2
        | deep h1 h2 => exact .deep (List.mem_cons_of_mem _ h1) h2
    · intro h
      cases h with
      | here h1 h2 =>
        rcases List.mem_cons.mp h1 with h1 | h1
        · exact Or.inl (.here (List.mem_singleton.mpr h1) h2)
        · exact Or.inr (.here h1 h2)
      | deep h1 h2 =>
        rcases List.mem_cons.mp h1 with h1 | h1
        · exact Or.inl (.deep (List.mem_singleton.mpr h1) h2)
        · exact Or.inr (.deep h1 h2)

theorem findEntry_iff {name : Text} {v : Val} : ∀ e : Text × Val, v ∈ findEntry name e ↔ Leaf [e] name v
  | (k, .nested d) => by
    rw [findEntry, findVal, findAll_iff d]
    constructor
    · exact fun h => .deep (List.mem_singleton.mpr rfl) h
    · intro h
      cases h with
      | here h1 h2 =>
        rw [List.mem_singleton, Prod.mk.injEq] at h1
        exact absurd h1.2 (h2 d)
      | deep h1 h2 =>
        rw [List.mem_singleton, Prod.mk.injEq] at h1
        injection h1.2 with e
        exact e ▸ h2
  | (k, .int i) => by rw [findEntry, findVal]; exact leaf_one (by simp)
  | (k, .single i) => by rw [findEntry, findVal]; exact leaf_one (by simp)
  | (k, .double i) => by rw [findEntry, findVal]; exact leaf_one (by simp)
  | (k, .time i) => by rw [findEntry, findVal]; exact leaf_one (by simp)
  | (k, .many i) => by rw [findEntry, findVal]; exact leaf_one (by simp)
  | (k, .text i) => by rw [findEntry, findVal]; exact leaf_one (by simp)
  | (k, .binary i) => by rw [findEntry, findVal]; exact leaf_one (by simp)
  | (k, .none) => by rw [findEntry, findVal]; exact leaf_one (by simp)
end

theorem getKey_only {name : Text} {d : Dict} {v : Val} (h : Only d name v) : getKey name d = some v := by
  obtain ⟨h1, h2, h3⟩ := h
  have hm := (findAll_iff d).mpr h1
  unfold getKey
  cases e : findAll name d with
  | nil => rw [e] at hm; exact absurd hm (List.not_mem_nil)
  | cons a l =>
    have : a = v := h3 a ((findAll_iff d).mp (e ▸ List.mem_cons_self ..))
    subst this
    rw [List.head?_cons]
    unfold present
    split
    · rename_i e'; injection e' with e'; exact absurd e' h2
    · rfl

theorem getKey_lacks {name : Text} {d : Dict} (h : Lacks d name) : getKey name d = none := by
  unfold getKey
  cases e : findAll name d with
  | nil => rfl
  | cons a l => exact absurd ((findAll_iff d).mp (e ▸ List.mem_cons_self ..)) (h a)

theorem num_ok {v : Val} {x : Rat} (h : Number v x) : numOf v = some x := by cases h <;> rfl

/-- The metadata are made of those in the result. -/
theorem reader_parts {rounds : Nat} {micro : Nat → Nat} {name : Text} {l u : Bool} {f : Bytes} {extra : Option Dict} {md : Metadata} {r : Result}
    (hread : fileReader rounds f false u = some (.ok r)) (hmeta : fileMetadata rounds micro name l f extra = some (.ok md)) :
    ∃ ht, mapMetadata name l ht r.metadata extra = .ok md := by
  unfold fileReader at hread
  rw [if_neg (by decide)] at hread
  unfold fileMetadata at hmeta
  cases hloc : locate f rounds 0 false [] with
  | none => rw [hloc] at hread; cases hread
  | some x =>
    rw [hloc] at hread hmeta
    injection hread with hread
    injection hmeta with hmeta
    cases x with
    | error e => cases hread
    | ok blocks =>
      obtain ⟨m, h1, h2⟩ := readFile_meta hread
      replace hmeta : (readHeadText micro f blocks >>= fun ht => readMeta f blocks >>= fun m => mapMetadata name l ht m.1 extra) = .ok md := hmeta
      obtain ⟨ht, _, hmeta⟩ := bind_ok.mp hmeta
      obtain ⟨m', h3, h4⟩ := bind_ok.mp hmeta
      rw [h1] at h3
      injection h3 with h3
      rw [h2, h3]
      exact ⟨ht, h4⟩

theorem entry_part {r : Result} {b n : String} {d : Dict} (h : Part r b n d) : blockEntry r.metadata b.toList n.toList = some (.nested d) := by
  obtain ⟨x, h1, h2⟩ := h
  unfold blockEntry
  rw [h1]
  dsimp only
  rw [h2]
  rfl

theorem entry_none {r : Result} {b n : String} (h : NoPart r b n) : blockEntry r.metadata b.toList n.toList = none := by
  unfold blockEntry
  rcases h with h | ⟨x, h1, h2⟩
  · rw [h]
  · rw [h1]
    dsimp only
    rw [h2]
    rfl

/-- **C160, laser.** The wavelength in nm is `10^7` over the wavenumber in 1/cm of the laser. What is missing: several lasers, of which the first one is taken,
and lasers without a wavenumber, see `C160_fails_lasers` and `C160_fails_wavenumber`. -/
theorem C160_laser_partial {rounds : Nat} {micro : Nat → Nat} {name : Text} {l u : Bool} {f : Bytes} {extra : Option Dict} {md : Metadata} {r : Result}
    (hread : fileReader rounds f false u = some (.ok r)) (hmeta : fileMetadata rounds micro name l f extra = some (.ok md)) :
    (∀ (d : Dict) (v : Val) (x : Rat), Part r "WXCS_0" "Lasers" d → Only d "Wavenumber".toList v → Number v x → x ≠ 0 →
      md.laser = some (.finite (10 ^ 7 / x))) ∧
    (NoPart r "WXCS_0" "Lasers" → md.laser = none) := by
  obtain ⟨ht, h⟩ := reader_parts hread hmeta
  obtain ⟨_, _, _, h4, _⟩ := map_parts h
  constructor
  · intro d v x hp ho hn h0
    unfold laserMeta at h4
    rw [entry_part hp] at h4
    dsimp only at h4
    rw [getKey_only ho] at h4
    unfold wavelength at h4
    rw [Option.bind_some, num_ok hn] at h4
    dsimp only at h4
    rw [if_neg h0] at h4
    injection h4 with h4
    rw [← h4]
    norm_num
  · intro hp
    unfold laserMeta at h4
    rw [entry_none hp] at h4
    injection h4 with h4
    exact h4.symm

/-- **C160, grating.** -/
theorem C160_grating {rounds : Nat} {micro : Nat → Nat} {name : Text} {l u : Bool} {f : Bytes} {extra : Option Dict} {md : Metadata} {r : Result}
    (hread : fileReader rounds f false u = some (.ok r)) (hmeta : fileMetadata rounds micro name l f extra = some (.ok md)) :
    (∀ (d : Dict) (v : Val), Part r "WXCS_0" "Gratings" d → Only d "Groove Density (lines/mm)".toList v → md.grating = some (some v)) ∧
    (∀ d : Dict, Part r "WXCS_0" "Gratings" d → Lacks d "Groove Density (lines/mm)".toList → md.grating = some none) ∧
    (NoPart r "WXCS_0" "Gratings" → md.grating = none) := by
  obtain ⟨ht, h⟩ := reader_parts hread hmeta
  obtain ⟨_, _, _, _, h5⟩ := map_parts h
  unfold gratingMeta at h5
  refine ⟨fun d v hp ho => ?_, fun d hp ho => ?_, fun hp => ?_⟩
  · rw [entry_part hp] at h5
    dsimp only at h5
    rw [getKey_only ho] at h5
    injection h5 with h5
    exact h5.symm
  · rw [entry_part hp] at h5
    dsimp only at h5
    rw [getKey_lacks ho] at h5
    injection h5 with h5
    exact h5.symm
  · rw [entry_none hp] at h5
    injection h5 with h5
    exact h5.symm

/-- An entry that is there, or not. -/
def Holds (d : Dict) (k : Text) (o : Option Val) : Prop :=
  (∀ v, getKw k d = some v → v ≠ .none → o = some v) ∧ (getKw k d = none → o = none)

theorem holds_present (d : Dict) (k : Text) : Holds d k (present (getKw k d)) := by
  constructor
  · intro v h0 h
    rw [h0]
    unfold present
    split
    · rename_i e'; injection e' with e'; exact absurd e' h
    · rfl
  · intro h
    rw [h]
    rfl

/-- **C160, detector.** Model and temperature of the CCD; the number of frames, the time of integration in seconds (milliseconds of a frame, times frames, over 1000)
and the removal of cosmic rays are those of the entries of `WXDM` that are matched afterwards. What is missing: entries of `WXDM` that have their names
in the same part of the block, see `C160_fails_matched`. -/
theorem C160_detector_partial {rounds : Nat} {micro : Nat → Nat} {name : Text} {l u : Bool} {f : Bytes} {extra : Option Dict} {md : Metadata} {r : Result}
    (hread : fileReader rounds f false u = some (.ok r)) (hmeta : fileMetadata rounds micro name l f extra = some (.ok md)) :
    (∀ ccd : Dict, Part r "WXCS_0" "CCD" ccd → ∃ t, md.detector = some t ∧ t.type = "CCD".toList ∧ Holds ccd "CCD".toList t.model ∧
      Holds ccd "Target temperature".toList t.temperature ∧
      (∀ w, extra = some w →
        (∀ v, Only w "Accumulations".toList v → t.frames = some v) ∧ (Lacks w "Accumulations".toList → t.frames = none ∧ t.integration = none) ∧
        (∀ v, Only w "Use Cosmic Ray Remove".toList v → t.cosmic = some v) ∧ (Lacks w "Use Cosmic Ray Remove".toList → t.cosmic = none) ∧
        (Lacks w "Exposure Time".toList → t.integration = none) ∧
        (∀ ve vn e n, Only w "Exposure Time".toList ve → Only w "Accumulations".toList vn → Number ve e → Number vn n → t.integration = some (e * n / 1000))) ∧
      (extra = none → t.frames = none ∧ t.integration = none ∧ t.cosmic = none)) ∧
    (NoPart r "WXCS_0" "CCD" → md.detector = none) := by
  obtain ⟨ht, h⟩ := reader_parts hread hmeta
  obtain ⟨_, _, h3, _⟩ := map_parts h
  unfold detectorMeta at h3
  constructor
  · intro ccd hp
    rw [entry_part hp] at h3
    dsimp only at h3
    cases extra with
    | none =>
      injection h3 with h3
      exact ⟨_, h3.symm, rfl, holds_present _ _, holds_present _ _, (fun w hw => by cases hw), fun _ => ⟨rfl, rfl, rfl⟩⟩
    | some w =>
      injection h3 with h3
      refine ⟨_, h3.symm, rfl, holds_present _ _, holds_present _ _, ?_, fun hw => by cases hw⟩
      intro w' hw
      injection hw with hw
      subst hw
      refine ⟨fun v hv => getKey_only hv, fun hv => ?_, fun v hv => getKey_only hv, fun hv => getKey_lacks hv, fun hv => ?_, ?_⟩
      · dsimp only
        rw [getKey_lacks hv]
        refine ⟨rfl, ?_⟩
        unfold integrationTime
        cases (getKey "Exposure Time".toList w).bind numOf <;> rfl
      · dsimp only
        rw [getKey_lacks hv]
        rfl
      · intro ve vn e n he hn h1 h2
        dsimp only
        rw [getKey_only he, getKey_only hn]
        unfold integrationTime
        rw [Option.bind_some, Option.bind_some, num_ok h1, num_ok h2]
  · intro hp
    rw [entry_none hp] at h3
    injection h3 with h3
    exact h3.symm

/-! ### C161: the map in the image -/

theorem inside {o s : Rat} {k X : Nat} (hk : k < X) : |o + s * k - (o + s * X / 2)| ≤ |s * X| / 2 := by
  have e : o + s * k - (o + s * X / 2) = s * (k - X / 2) := by ring
  rw [e, abs_mul, abs_mul]
  have h1 : |(k : Rat) - X / 2| ≤ |(X : Rat)| / 2 := by
    have h0 : (0 : Rat) ≤ k := Nat.cast_nonneg k
    have h2 : (k : Rat) ≤ X := Nat.cast_le.mpr (Nat.le_of_lt hk)
    rw [abs_of_nonneg (le_trans h0 h2), abs_le]
    constructor <;> linarith
  calc |s| * |(k : Rat) - X / 2| ≤ |s| * (|(X : Rat)| / 2) := mul_le_mul_of_nonneg_left h1 (abs_nonneg s)
    _ = |s| * |(X : Rat)| / 2 := by ring

/-- **C161.** The rectangle in the white light image reaches from the first position of the map to the last one, and one step further, in both directions;
all points of the map are in it. There is no rectangle without a map. What is missing: measurements along a line, and unfinished ones, see `C161_fails_line` and `C161_fails_unfinished`. -/
theorem C161_marker_partial {f : Bytes} {bs : List Block} {rounds : Nat} (h : Wdf f bs) (hr : bs.length < rounds) :
    (∀ (b : Bytes) (fl X Y : Nat) (ox oy sx sy : Rat), Has bs "WMAP" 0 b → Map b fl X Y ox oy sx sy →
      ∃ mk, fileMarker rounds f = some (.ok (some mk)) ∧ mk.x - mk.width / 2 = ox ∧ mk.x + mk.width / 2 = ox + sx * X ∧
        mk.y - mk.height / 2 = oy ∧ mk.y + mk.height / 2 = oy + sy * Y ∧
        (∀ k < X, |ox + sx * k - mk.x| ≤ |mk.width| / 2) ∧ ∀ k < Y, |oy + sy * k - mk.y| ≤ |mk.height| / 2) ∧
    ((∀ b ∈ bs, ¬ (b.label = "WMAP".toList ∧ b.uid = 0)) → fileMarker rounds f = some (.ok none)) := by
  have hloc := wdf_locate h rounds hr
  constructor
  · intro b fl X Y ox oy sx sy hb hm
    have hw := readWmap_found (has_found h hb (k := "WMAP_0".toList) (by decide)) hm
    refine ⟨mapMarker ⟨fl, [ox, oy], [sx, sy], [X, Y]⟩, ?_, ?_, ?_, ?_, ?_, ?_, ?_⟩
    · unfold fileMarker
      rw [hloc, Option.map_some]
      show some ((readWmap f (place 0 bs [])).map _) = _
      rw [hw]
      rfl
    · show ox + sx * X / 2 - sx * X / 2 = ox
      ring
    · show ox + sx * X / 2 + sx * X / 2 = ox + sx * X
      ring
    · show oy + sy * Y / 2 - sy * Y / 2 = oy
      ring
    · show oy + sy * Y / 2 + sy * Y / 2 = oy + sy * Y
      ring
    · intro k hk
      exact inside hk
    · intro k hk
      exact inside hk
  · intro hn
    have := wdf_missing h (l := "WMAP".toList) (u := 0) hn
    have e : readWmap f (place 0 bs []) = .ok none := by
      unfold readWmap
      rw [show "WMAP_0".toList = title "WMAP".toList 0 from by decide, this]
    unfold fileMarker
    rw [hloc, Option.map_some]
    show some ((readWmap f (place 0 bs [])).map _) = _
    rw [e]
    rfl

/-! ### Examples -/

/-- The nearest microsecond. -/
def exactMicro (t : Nat) : Nat := (t + 5) / 10

theorem exact_close : Close exactMicro := ⟨fun t _ => by unfold exactMicro; omega, fun t _ => by unfold exactMicro; omega, fun k _ => by unfold exactMicro; omega⟩

def ascii (s : String) : Bytes := s.toList.map fun c => UInt8.ofNat c.toNat
def padded (n : Nat) (s : String) : Bytes := (ascii s ++ List.replicate n 0).take n

/-- A complete header of a single spectrum: start, end, unit of the intensity, title. -/
def longHdr (start finish unit : Nat) (title : String) : Bytes :=
  List.replicate 44 0 ++ leBytes 4 2 ++ leBytes 8 1 ++ leBytes 8 1 ++ List.replicate 8 0 ++ leBytes 4 2 ++ List.replicate 40 0 ++ leBytes 4 1 ++
    leBytes 8 start ++ leBytes 8 finish ++ leBytes 4 unit ++ List.replicate 52 0 ++ padded 32 "me" ++ padded 160 title

/-- Metadata on a laser of 20000 1/cm, a grating, and a detector. -/
def exWxcs : List (Nat × Node) :=
  [(1, .name (ascii "Lasers")), (1, .nested [(2, .name (ascii "first")), (2, .nested [(3, .name (ascii "Wavenumber")), (3, .number 113 (leBytes 8 0x40D3880000000000))])]),
    (4, .name (ascii "Gratings")), (4, .nested [(5, .name (ascii "Groove Density (lines/mm)")), (5, .number 105 (leBytes 4 1800))]),
    (6, .name (ascii "CCD")), (6, .nested [(7, .name (ascii "CCD")), (7, .text (ascii "Renishaw")), (8, .name (ascii "Target temperature")), (8, .number 105 (leBytes 4 4294967226))])]

/-- Entries of the measurement: ten frames of 500 ms. -/
def exExtra : Dict :=
  [("sub0".toList, .nested [("Accumulations".toList, .int 10), ("Exposure Time".toList, .int 500)]), ("Use Cosmic Ray Remove".toList, .int 1)]

def exMoment : Moment := ⟨2024, 2, 29, 13, 45, 10⟩

theorem exMoment_valid : exMoment.Valid := ⟨by decide, by decide, by decide, by decide, by decide, by decide⟩

def exFile (start finish : Nat) : List Block :=
  [blk "WDF1" 1 (longHdr start finish 6 "a test"), blk "DATA" 0 (exData 2), blk "XLST" 0 exXlst, blk "WXCS" 0 (pset exWxcs [])]

def exStart : Nat := 10000000 * exMoment.seconds + 1234567

theorem exFile_wdf : Wdf ((exFile exStart exStart).flatMap Block.bytes) (exFile exStart exStart) := ⟨rfl, by decide +kernel, by decide +kernel⟩

/-- What the examples show. -/
def shown (md : Metadata) : List Text × Option Wave × Option Rat :=
  ([md.general.date, md.general.time, md.general.title, md.signal.2], md.laser, md.detector.bind Detector.integration)

example : ((fileMetadata 5 exactMicro "d/a.wdf".toList false ((exFile exStart exStart).flatMap Block.bytes) (some exExtra)).bind Except.toOption).map shown =
    some (["2024-02-29".toList, "13:45:10".toList, "a test".toList, "Intensity (Counts)".toList], some (.finite 500), some 5) := by decide +kernel

example : ∃ r, fileReader 5 ((exFile exStart exStart).flatMap Block.bytes) false false = some (.ok r) := by
  have : (match fileReader 5 ((exFile exStart exStart).flatMap Block.bytes) false false with
      | some (.ok _) => true
      | _ => false) = true := by decide +kernel
  split at this
  · rename_i r hr
    exact ⟨r, hr⟩
  · cases this

example : Has (exFile exStart exStart) "WDF1" 1 (longHdr exStart exStart 6 "a test") ∧ 384 ≤ (longHdr exStart exStart 6 "a test").length ∧
    num (longHdr exStart exStart 6 "a test") 120 8 = 10000000 * exMoment.seconds + 1234567 ∧ 10000000 * exMoment.seconds + 1234567 < 2 ^ 57 := by decide +kernel

example : Only exExtra "Accumulations".toList (.int 10) ∧ Number (.int 10) 10 ∧ Lacks exExtra "Gain".toList := by
  have h : ∀ v, Leaf exExtra "Accumulations".toList v ↔ v ∈ findAll "Accumulations".toList exExtra := fun v => (findAll_iff exExtra).symm
  have e : findAll "Accumulations".toList exExtra = [.int 10] := by rfl
  have e' : findAll "Gain".toList exExtra = [] := by rfl
  refine ⟨⟨(h _).mpr (by rw [e]; exact List.mem_singleton.mpr rfl), by simp, fun v hv => ?_⟩, Number.int 10, fun v hv => ?_⟩
  · have := (h v).mp hv
    rw [e] at this
    exact List.mem_singleton.mp this
  · have := (findAll_iff exExtra).mpr hv
    rw [e'] at this
    exact absurd this (List.not_mem_nil)

/-! ### Counterexamples -/

/-- C159 fails: in the last half of the last microsecond of a second the next second is reported (with exact arithmetic; with that of NumPy some more), because the number
is rounded to microseconds before the fraction is cut off. -/
theorem C159_fails_second {rounds : Nat} {name : Text} {l : Bool} {f hdr : Bytes} {extra : Option Dict} {md : Metadata} {bs : List Block}
    (h : Wdf f bs) (hr : bs.length < rounds) (hb : Has bs "WDF1" 1 hdr) (hl : 384 ≤ hdr.length)
    (hread : fileMetadata rounds exactMicro name l f extra = some (.ok md))
    {c c' : Moment} (hv : c'.Valid) (hc : c'.seconds = c.seconds + 1) (ht : num hdr 120 8 = 10000000 * c.seconds + 9999999) :
    md.general.date = c'.date ∧ md.general.time = c'.time := by
  obtain ⟨hd, m, h1, _, h3⟩ := file_parts h hr hread
  obtain ⟨g1, _⟩ := map_parts h3
  obtain ⟨e1, _⟩ := general_parts g1
  obtain ⟨w1, _⟩ := head_parts (has_found h hb (by decide)) hl h1
  rw [windows_ok hv (by rw [ht, hc]; unfold exactMicro; omega)] at w1
  injection w1 with w1
  rw [← w1, splitChar_append (date_no c'), splitChar_none (time_no c')] at e1
  injection e1 with e1 e2
  injection e2 with e2
  exact ⟨e1.symm, e2.symm⟩

example : (⟨2024, 2, 29, 13, 45, 11⟩ : Moment).Valid ∧ (⟨2024, 2, 29, 13, 45, 11⟩ : Moment).seconds = exMoment.seconds + 1 :=
  ⟨⟨by decide, by decide, by decide, by decide, by decide, by decide⟩, by decide +kernel⟩

/-- C159 fails: a file whose time of the end is no date (here the largest number) cannot be read, although this time is not used. -/
theorem C159_fails_end {rounds : Nat} {name : Text} {l : Bool} {f hdr : Bytes} {extra : Option Dict} {md : Metadata} {bs : List Block}
    (h : Wdf f bs) (hr : bs.length < rounds) (hb : Has bs "WDF1" 1 hdr) (hl : 384 ≤ hdr.length) (he : num hdr 128 8 = 2 ^ 63 - 1) :
    fileMetadata rounds exactMicro name l f extra ≠ some (.ok md) := by
  intro hread
  obtain ⟨hd, m, h1, _, _⟩ := file_parts h hr hread
  obtain ⟨_, w2, _⟩ := head_parts (has_found h hb (by decide)) hl h1
  rw [he] at w2
  unfold windowsTime at w2
  have e1 : exactMicro (2 ^ 63 - 1) / 1000000 / 86400 = before (1601 + 29227) - before 1601 + 257 := by decide +kernel
  dsimp only at w2
  rw [e1, walk_years (k := 29227) (n := 257) _ 1601 (Nat.le_refl _) (by decide +kernel) (Nat.le_refl _)] at w2
  dsimp only at w2
  rw [if_pos (by omega)] at w2
  cases w2

/-- C160 fails: a file with metadata on lasers, but without a wavenumber, cannot be read. -/
theorem C160_fails_wavenumber {rounds : Nat} {micro : Nat → Nat} {name : Text} {l u : Bool} {f : Bytes} {extra : Option Dict} {md : Metadata} {r : Result}
    (hread : fileReader rounds f false u = some (.ok r)) {d : Dict} (hp : Part r "WXCS_0" "Lasers" d) (hd : Lacks d "Wavenumber".toList) :
    fileMetadata rounds micro name l f extra ≠ some (.ok md) := by
  intro hmeta
  obtain ⟨ht, h⟩ := reader_parts hread hmeta
  obtain ⟨_, _, _, h4, _⟩ := map_parts h
  unfold laserMeta at h4
  rw [entry_part hp] at h4
  dsimp only at h4
  rw [getKey_lacks hd] at h4
  cases h4

example : ((fileMetadata 5 exactMicro [] false ((exFile exStart exStart ++ []).flatMap Block.bytes) none).bind Except.toOption).isSome = true ∧
    (match fileMetadata 5 exactMicro [] false (([blk "WDF1" 1 (longHdr exStart exStart 6 "a test"), blk "WXCS" 0 (pset [(1, .name (ascii "Lasers")),
      (1, .nested [(2, .name (ascii "Power")), (2, .number 105 (leBytes 4 1))])] [])]).flatMap Block.bytes) none with
    | some (.error .typeError) => true
    | _ => false) = true := by decide +kernel

/-- C160 fails: of several lasers the first one is reported, whichever was used. -/
theorem C160_fails_lasers {rounds : Nat} {micro : Nat → Nat} {name : Text} {l u : Bool} {f : Bytes} {extra : Option Dict} {md : Metadata} {r : Result}
    (hread : fileReader rounds f false u = some (.ok r)) (hmeta : fileMetadata rounds micro name l f extra = some (.ok md))
    {a : Text} {v : Val} {x : Rat} {others : Dict} (hp : Part r "WXCS_0" "Lasers" ((a, .nested [("Wavenumber".toList, v)]) :: others)) (hn : Number v x) (h0 : x ≠ 0) :
    md.laser = some (.finite (10 ^ 7 / x)) := by
  obtain ⟨ht, h⟩ := reader_parts hread hmeta
  obtain ⟨_, _, _, h4, _⟩ := map_parts h
  unfold laserMeta at h4
  rw [entry_part hp] at h4
  dsimp only at h4
  have e : getKey "Wavenumber".toList ((a, .nested [("Wavenumber".toList, v)]) :: others) = some v := by
    unfold getKey
    rw [findAll, findEntry, findVal, findAll]
    cases hn <;> rfl
  rw [e] at h4
  unfold wavelength at h4
  rw [Option.bind_some, num_ok hn] at h4
  dsimp only at h4
  rw [if_neg h0] at h4
  injection h4 with h4
  rw [← h4]
  norm_num

/-- C160 fails: the number of frames of a file that holds it in `WXDM`, name and value in the same part, is not found: only entries that are matched afterwards are searched. -/
theorem C160_fails_matched {rounds : Nat} {micro : Nat → Nat} {name : Text} {l u : Bool} {f : Bytes} {w d ccd : Dict} {v : Val} {md : Metadata} {r : Result}
    (hread : fileReader rounds f false u = some (.ok r)) (hmeta : fileMetadata rounds micro name l f (some w) = some (.ok md)) (hc : Part r "WXCS_0" "CCD" ccd)
    (_ : getKw "WXDM_0".toList r.metadata = some d) (_ : Leaf d "Accumulations".toList v) (hw : Lacks w "Accumulations".toList) :
    ∃ t, md.detector = some t ∧ t.frames = none ∧ t.integration = none := by
  obtain ⟨t, h1, _, _, _, h2, _⟩ := (C160_detector_partial hread hmeta).1 ccd hc
  exact ⟨t, h1, (h2 w rfl).2.1 hw⟩

-- a file with the number of frames in `WXDM`
example : ((fileReader 6 ((exFile exStart exStart ++ [blk "WXDM" 0 (pset [(1, .name (ascii "Accumulations")), (1, .number 105 (leBytes 4 10)), (2, .name (ascii "X")),
      (3, .nested [(2, .number 105 (leBytes 4 7))])] [])]).flatMap Block.bytes) false false).bind Except.toOption).map
    (fun r => (getKw "WXDM_0".toList r.metadata).map fun d => (findAll "Accumulations".toList d).length) = some (some 1) := by decide +kernel

/-- C161 fails: for measurements along a line (one row of `X` points, with steps in both directions) all points but the first two are outside of the rectangle. -/
theorem C161_fails_line {f : Bytes} {bs : List Block} {rounds : Nat} (h : Wdf f bs) (hr : bs.length < rounds) {b : Bytes} {X : Nat} {ox oy sx sy : Rat}
    (hb : Has bs "WMAP" 0 b) (hm : Map b 128 X 1 ox oy sx sy) (hs : sy ≠ 0) :
    ∃ mk, fileMarker rounds f = some (.ok (some mk)) ∧ ∀ k, 1 < k → k < X → |mk.height| / 2 < |oy + sy * k - mk.y| := by
  obtain ⟨mk, h1, _, _, h4, h5, _⟩ := (C161_marker_partial h hr).1 b 128 X 1 ox oy sx sy hb hm
  refine ⟨mk, h1, fun k hk _ => ?_⟩
  have e1 : mk.height = sy := by push_cast at h5; linarith
  have e2 : mk.y = oy + sy / 2 := by rw [e1] at h4; linarith
  rw [e1, e2, show oy + sy * (k : Rat) - (oy + sy / 2) = sy * ((k : Rat) - 1 / 2) by ring, abs_mul]
  have hk' : (2 : Rat) ≤ k := by exact_mod_cast hk
  rw [abs_of_pos (show (0 : Rat) < (k : Rat) - 1 / 2 by linarith)]
  have : 0 < |sy| := abs_pos.mpr hs
  nlinarith

example : Map (leBytes 4 128 ++ leBytes 4 0 ++ leBytes 4 0x3f800000 ++ leBytes 4 0x40000000 ++ leBytes 4 0 ++ leBytes 4 0x3f000000 ++
    leBytes 4 0x40800000 ++ leBytes 4 0 ++ leBytes 4 3 ++ leBytes 4 1 ++ leBytes 4 0 ++ leBytes 4 0) 128 3 1 1 2 (1 / 2) 4 := by decide +kernel

/-- C161 fails: for an unfinished map the rectangle shows the map that was planned: here two rows, of which one was measured. -/
theorem C161_fails_unfinished : ((fileReader 7 ((exPlan 0 6 5 (exRows.take 5)).flatMap Block.bytes) false false).bind Except.toOption).map (fun r => r.axes.map Axis.size) =
      some [1, 3, 2] ∧
    ((fileMarker 7 ((exPlan 0 6 5 (exRows.take 5)).flatMap Block.bytes)).bind Except.toOption) = some (some ⟨1 + 3 / 4, 2 + 4, 3 / 2, 2 * 4⟩) := by
  constructor <;> decide +kernel

end Verif.Props.RenishawMeta
