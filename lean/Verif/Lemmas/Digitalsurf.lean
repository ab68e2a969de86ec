import Verif.Spec.Digitalsurf
import Verif.Lemmas.Bytes
namespace Verif.Lemmas.Digitalsurf
open Verif.Digitalsurf Verif.Spec.Digitalsurf Verif.BytesSpec

/-! ### Text -/

theorem latin1_ok : ∀ {t : Text} {b : Bytes}, latin1 t = .ok b → b.map UInt8.toNat = t.map Char.toNat ∧ ofLatin1 b = t
  | [], b, h => by
    cases h
    exact ⟨rfl, rfl⟩
  | c :: t, b, h => by
    unfold latin1 at h
    split at h
    next hc =>
      cases hl : latin1 t with
      | error e => rw [hl] at h; cases h
      | ok b' =>
        rw [hl] at h
        cases h
        obtain ⟨h1, h2⟩ := latin1_ok hl
        have e : (UInt8.ofNat c.toNat).toNat = c.toNat := by
          rw [UInt8.toNat_ofNat']
          omega
        refine ⟨by simp [h1, e], ?_⟩
        unfold ofLatin1 at h2 ⊢
        rw [List.map_cons, h2, e, Char.ofNat_toNat]
    · cases h

theorem latin1_some : ∀ {t : Text}, (∀ c ∈ t, c.toNat < 256) → ∃ b, latin1 t = .ok b
  | [], _ => ⟨[], rfl⟩
  | c :: t, h => by
    obtain ⟨b, hb⟩ := latin1_some (fun d hd => h d (List.mem_cons_of_mem _ hd))
    exact ⟨UInt8.ofNat c.toNat :: b, by unfold latin1; rw [if_pos (h c (List.mem_cons_self ..)), hb]; rfl⟩

theorem ljust_take (n : Nat) (t : Text) : (ljust n t).take n = (t ++ List.replicate n ' ').take n := by
  unfold ljust
  rw [List.take_append, List.take_append, List.take_replicate, List.take_replicate]
  congr 2
  omega

theorem setStr_ok {n : Nat} {t : Text} {b : Bytes} (h : setStr n t = .ok b) :
    TextBytes n t b ∧ b.length = n ∧ ofLatin1 b = (t ++ List.replicate n ' ').take n := by
  unfold setStr at h
  cases hl : latin1 (ljust n t) with
  | error e => rw [hl] at h; cases h
  | ok b' =>
    rw [hl] at h
    cases h
    obtain ⟨h1, h2⟩ := latin1_ok hl
    have h3 : ofLatin1 (b'.take n) = (t ++ List.replicate n ' ').take n := by
      rw [← ljust_take, ← h2]
      unfold ofLatin1
      rw [List.map_take]
    refine ⟨?_, ?_, h3⟩
    · unfold TextBytes
      rw [List.map_take, h1, ← ljust_take, List.map_take]
    · have := congrArg List.length h3
      unfold ofLatin1 at this
      simp at this
      simp
      omega

theorem isBlank_iff (c : Char) : isBlank c = true ↔ blank c := by
  unfold isBlank blank
  simp [or_assoc]

theorem lstrip_parts (p : Char → Bool) (s : Text) : ∃ a, s = a ++ lstripBy p s ∧ (∀ c ∈ a, p c = true) ∧
    ∀ c ∈ (lstripBy p s).head?, p c = false := by
  refine ⟨s.takeWhile p, List.takeWhile_append_dropWhile.symm, fun c hc => ?_, fun c hc => ?_⟩
  · have := List.all_takeWhile (p := p) (l := s)
    exact (List.all_eq_true.1 this) c hc
  · unfold lstripBy at hc
    have := List.head?_dropWhile_not p s
    rw [hc] at this
    simpa using this

theorem rstrip_parts (p : Char → Bool) (s : Text) : ∃ z, s = rstripBy p s ++ z ∧ (∀ c ∈ z, p c = true) ∧
    ∀ c ∈ (rstripBy p s).getLast?, p c = false := by
  obtain ⟨a, h1, h2, h3⟩ := lstrip_parts p s.reverse
  refine ⟨a.reverse, ?_, fun c hc => h2 c (List.mem_reverse.1 hc), fun c hc => ?_⟩
  · have := congrArg List.reverse h1
    rw [List.reverse_reverse, List.reverse_append] at this
    exact this
  · unfold rstripBy at hc
    rw [List.getLast?_reverse] at hc
    exact h3 c hc

theorem strip_trim (s : Text) : Trim s (stripBy isBlank s) := by
  obtain ⟨a, h1, h2, h3⟩ := lstrip_parts isBlank s
  obtain ⟨z, h4, h5, h6⟩ := rstrip_parts isBlank (lstripBy isBlank s)
  refine ⟨a, z, ?_, fun c hc => (isBlank_iff c).1 (h2 c hc), fun c hc => (isBlank_iff c).1 (h5 c hc), ?_, ?_⟩
  · unfold stripBy
    rw [List.append_assoc, ← h4, ← h1]
  · intro c hc hb
    have hc' : c ∈ (lstripBy isBlank s).head? := by
      unfold stripBy at hc
      cases hr : rstripBy isBlank (lstripBy isBlank s) with
      | nil => rw [hr] at hc; cases hc
      | cons d t =>
        rw [hr] at hc
        cases hc
        rw [h4, hr]
        rfl
    have := h3 c hc'
    rw [(isBlank_iff c).2 hb] at this
    cases this
  · intro c hc hb
    have := h6 c hc
    rw [(isBlank_iff c).2 hb] at this
    cases this

theorem lstripBy_append {p : Char → Bool} : ∀ {a s : Text}, (∀ c ∈ a, p c = true) → lstripBy p (a ++ s) = lstripBy p s
  | [], _, _ => rfl
  | c :: a, s, h => by
    unfold lstripBy
    rw [List.cons_append, List.dropWhile_cons_of_pos (h c (List.mem_cons_self ..))]
    exact lstripBy_append (fun d hd => h d (List.mem_cons_of_mem _ hd))

theorem strip_eq {a t z : Text} (ha : ∀ c ∈ a, blank c) (hz : ∀ c ∈ z, blank c)
    (hh : ∀ c ∈ t.head?, ¬ blank c) (hl : ∀ c ∈ t.getLast?, ¬ blank c) : stripBy isBlank (a ++ t ++ z) = t := by
  unfold stripBy
  rw [List.append_assoc, lstripBy_append (fun c hc => (isBlank_iff c).2 (ha c hc))]
  cases t with
  | nil =>
    have : lstripBy isBlank ([] ++ z) = [] := by
      rw [List.nil_append]
      have := lstripBy_append (p := isBlank) (a := z) (s := []) (fun c hc => (isBlank_iff c).2 (hz c hc))
      rw [List.append_nil] at this
      exact this
    rw [this]
    rfl
  | cons d t =>
    have hd : isBlank d = false := by
      by_contra h
      exact hh d rfl ((isBlank_iff d).1 (by simpa using h))
    rw [lstripBy_id (by
      intro c hc
      cases hc
      exact hd), rstripBy_append (fun c hc => (isBlank_iff c).2 (hz c hc)), rstripBy_id]
    intro c hc
    by_contra h
    exact hl c hc ((isBlank_iff c).1 (by simpa using h))

theorem trim_eq {s t : Text} (h : Trim s t) : stripBy isBlank s = t := by
  obtain ⟨a, z, rfl, ha, hz, hh, hl⟩ := h
  exact strip_eq ha hz hh hl

theorem trim_pad {n : Nat} {t u : Text} : Trim ((t ++ List.replicate n ' ').take n) u ↔ Trim (t.take n) u := by
  have e : (t ++ List.replicate n ' ').take n = t.take n ++ List.replicate (n - t.length) ' ' := by
    rw [List.take_append, List.take_replicate]
    congr 2
    omega
  have hb : ∀ c ∈ List.replicate (n - t.length) ' ', isBlank c = true := by
    intro c hc
    rw [List.eq_of_mem_replicate hc]
    rfl
  have hs : stripBy isBlank (t.take n ++ List.replicate (n - t.length) ' ') = stripBy isBlank (t.take n) := by
    obtain ⟨a, z, h1, h2, h3, h4, h5⟩ := strip_trim (t.take n)
    conv_lhs => rw [h1]
    rw [List.append_assoc]
    exact strip_eq h2 (fun c hc => (List.mem_append.1 hc).elim (h3 c) (fun h => (isBlank_iff c).1 (hb c h))) h4 h5
  rw [e]
  constructor
  · intro h
    have := trim_eq h
    rw [hs] at this
    rw [← this]
    exact strip_trim _
  · intro h
    have := trim_eq h
    rw [← hs] at this
    rw [← this]
    exact strip_trim _

/-! ### Fields -/

def fieldOf : Kind → Field
  | .str n => .text n
  | .i16 => .int 2 true
  | .u16 => .int 2 false
  | .i32 => .int 4 true
  | .u32 => .int 4 false
  | .f32 => .single
  | .raw n => .bytes n

theorem fieldOf_width (k : Kind) : (fieldOf k).width = k.width := by cases k <;> rfl

theorem fit_length (n : Nat) (b : Bytes) : (fit n b).length = n := by
  unfold fit
  simp
  omega

theorem fit_eq (n : Nat) (b : Bytes) : fit n b = (b ++ List.replicate n 0).take n := by
  unfold fit
  rw [List.take_append, List.take_replicate]
  congr 2
  omega

theorem setInt_ok {w : Nat} {s : Bool} {i : Int} {b : Bytes} (h : setInt w s i = .ok b) :
    b.length = w ∧ Encodes false s b i ∧ getInt w s b = .ok i := by
  unfold setInt at h
  split at h
  next hr =>
    cases h
    have hlt := ofSigned_lt w i
    have hv : leVal (leBytes w (ofSigned w i)) = ofSigned w i := leVal_leBytes hlt
    refine ⟨leBytes_length _ _, ?_, ?_⟩
    · cases s
      · have := encodes_unsigned false (leBytes w (ofSigned w i))
        rw [stored_eq] at this
        simp only [Bool.false_eq_true, if_false] at this
        simp only [inRange, decide_eq_true_eq] at hr
        rw [hv] at this
        have e : ((ofSigned w i : Nat) : Int) = i := by
          unfold ofSigned
          rw [Int.emod_eq_of_lt hr.1 hr.2]
          omega
        rw [e] at this
        exact this
      · have := encodes_toSigned false (leBytes w (ofSigned w i))
        rw [stored_eq] at this
        simp only [Bool.false_eq_true, if_false] at this
        simp only [inRange, decide_eq_true_eq] at hr
        rw [hv, leBytes_length, toSigned_ofSigned hr.1 hr.2] at this
        exact this
    · unfold getInt
      rw [leBytes_length, if_neg (by omega), hv]
      cases s
      · simp only [Bool.false_eq_true, if_false]
        simp only [inRange, decide_eq_true_eq] at hr
        unfold ofSigned
        rw [Int.emod_eq_of_lt hr.1 hr.2]
        congr 1
        omega
      · simp only [if_true]
        simp only [inRange, decide_eq_true_eq] at hr
        rw [toSigned_ofSigned hr.1 hr.2]
  · cases h

theorem getInt_ok {w : Nat} {s : Bool} {b : Bytes} {i : Int} (h : getInt w s b = .ok i) (hb : b.length ≤ w) :
    b.length = w ∧ Encodes false s b i := by
  unfold getInt at h
  split at h
  · cases h
  · have hw : b.length = w := by omega
    cases h
    refine ⟨hw, ?_⟩
    cases s
    · have := encodes_unsigned false b
      rw [stored_eq] at this
      exact this
    · have := encodes_toSigned false b
      rw [stored_eq, hw] at this
      exact this

theorem pack_ok {k : Kind} {v : Val} {b : Bytes} (h : pack k v = .ok b) :
    b.length = k.width ∧ Stored (fieldOf k) v b ∧ ∃ u, unpack k b = .ok u ∧ Back (fieldOf k) v u := by
  cases k <;> cases v <;> (try (cases h; done))
  case str.text n t =>
    obtain ⟨h1, h2, h3⟩ := setStr_ok h
    refine ⟨h2, h1, _, rfl, ?_⟩
    rw [h3]
    exact trim_pad.1 (strip_trim _)
  case i16.int i =>
    obtain ⟨h1, h2, h3⟩ := setInt_ok h
    exact ⟨h1, ⟨h1, h2⟩, .int i, by unfold unpack; rw [h3]; rfl, rfl⟩
  case u16.int i =>
    obtain ⟨h1, h2, h3⟩ := setInt_ok h
    exact ⟨h1, ⟨h1, h2⟩, .int i, by unfold unpack; rw [h3]; rfl, rfl⟩
  case i32.int i =>
    obtain ⟨h1, h2, h3⟩ := setInt_ok h
    exact ⟨h1, ⟨h1, h2⟩, .int i, by unfold unpack; rw [h3]; rfl, rfl⟩
  case u32.int i =>
    obtain ⟨h1, h2, h3⟩ := setInt_ok h
    exact ⟨h1, ⟨h1, h2⟩, .int i, by unfold unpack; rw [h3]; rfl, rfl⟩
  case f32.float r =>
    unfold pack at h
    dsimp only at h
    cases he : f32Enc r with
    | none => rw [he] at h; cases h
    | some n =>
      rw [he] at h
      cases h
      have hv : leVal (leBytes 4 n) = n := leVal_leBytes (f32Enc_lt he)
      refine ⟨leBytes_length _ _, ⟨leBytes_length _ _, ?_⟩, .float (f32Dec n), ?_, n, he, rfl⟩
      · rw [stored_eq]
        simp only [Bool.false_eq_true, if_false]
        rw [hv, he]
      · unfold unpack
        dsimp only
        rw [leBytes_length, if_neg (by omega), hv]
  case raw.raw n x =>
    cases h
    exact ⟨fit_length n x, fit_eq n x, .raw (fit n x), rfl, fit_eq n x⟩

theorem unpack_ok {k : Kind} {b : Bytes} {v : Val} (h : unpack k b = .ok v) (hb : b.length ≤ k.width) :
    Shows (fieldOf k) b v := by
  cases k
  case str n =>
    cases h
    exact strip_trim _
  case i16 =>
    unfold unpack at h
    dsimp only at h
    cases hg : getInt 2 true b with
    | error e => rw [hg] at h; cases h
    | ok i => rw [hg] at h; cases h; exact getInt_ok hg hb
  case u16 =>
    unfold unpack at h
    dsimp only at h
    cases hg : getInt 2 false b with
    | error e => rw [hg] at h; cases h
    | ok i => rw [hg] at h; cases h; exact getInt_ok hg hb
  case i32 =>
    unfold unpack at h
    dsimp only at h
    cases hg : getInt 4 true b with
    | error e => rw [hg] at h; cases h
    | ok i => rw [hg] at h; cases h; exact getInt_ok hg hb
  case u32 =>
    unfold unpack at h
    dsimp only at h
    cases hg : getInt 4 false b with
    | error e => rw [hg] at h; cases h
    | ok i => rw [hg] at h; cases h; exact getInt_ok hg hb
  case f32 =>
    unfold unpack at h
    dsimp only at h
    split at h
    · cases h
    next hl =>
      cases h
      have hb' : b.length ≤ 4 := hb
      refine ⟨by omega, ?_⟩
      rw [stored_eq]
      rfl
  case raw n =>
    cases h
    rfl

/-- Position of field `i`. -/
def offset (ks : List Kind) (i : Nat) : Nat := ((ks.take i).map Kind.width).sum

theorem packAll_ok : ∀ {ks : List Kind} {vs : List Val} {b : Bytes}, packAll ks vs = .ok b →
    b.length = (ks.map Kind.width).sum ∧ vs.length = ks.length ∧
    (∀ (i : Nat) k, ks[i]? = some k → ∃ v, vs[i]? = some v ∧
      Stored (fieldOf k) v ((b.drop (offset ks i)).take k.width)) ∧
    ∀ rest, ∃ us, unpackAll ks (b ++ rest) = .ok (us, rest) ∧
      List.Forall₂ (fun (p : Kind × Val) u => Back (fieldOf p.1) p.2 u) (ks.zip vs) us
  | [], [], b, h => by
    cases h
    exact ⟨rfl, rfl, fun i k hk => (by cases hk), fun rest => ⟨[], rfl, .nil⟩⟩
  | [], _ :: _, b, h => by cases h
  | _ :: _, [], b, h => by cases h
  | k :: ks, v :: vs, b, h => by
    unfold packAll at h
    cases hp : pack k v with
    | error e => rw [hp] at h; cases h
    | ok b1 =>
      cases hq : packAll ks vs with
      | error e => rw [hp, hq] at h; cases h
      | ok b2 =>
        rw [hp, hq] at h
        cases h
        obtain ⟨h1, h2, u, h3, h4⟩ := pack_ok hp
        obtain ⟨g1, g2, g3, g4⟩ := packAll_ok hq
        refine ⟨by simp [h1, g1], by simp [g2], ?_, ?_⟩
        · intro i k' hk
          cases i with
          | zero =>
            cases hk
            refine ⟨v, rfl, ?_⟩
            unfold offset
            rw [List.take_zero]
            simp only [List.map_nil, List.sum_nil, List.drop_zero]
            rw [List.take_append_of_le_length (by omega), List.take_of_length_le (by omega)]
            exact h2
          | succ i =>
            obtain ⟨w, hw, hs⟩ := g3 i k' hk
            refine ⟨w, hw, ?_⟩
            have : offset (k :: ks) (i + 1) = b1.length + offset ks i := by
              unfold offset
              simp [h1]
            rw [this, List.drop_length_add_append]
            exact hs
        · intro rest
          obtain ⟨us, g5, g6⟩ := g4 rest
          refine ⟨u :: us, ?_, .cons h4 g6⟩
          unfold unpackAll
          rw [List.append_assoc, List.take_append_of_le_length (by omega), List.take_of_length_le (by omega), h3,
            ← h1, List.drop_left]
          dsimp only
          rw [g5]

theorem unpackAll_ok : ∀ {ks : List Kind} {f rest : Bytes} {vs : List Val}, unpackAll ks f = .ok (vs, rest) →
    vs.length = ks.length ∧ rest = f.drop (ks.map Kind.width).sum ∧
    ∀ (i : Nat) k, ks[i]? = some k → ∃ v, vs[i]? = some v ∧ Shows (fieldOf k) ((f.drop (offset ks i)).take k.width) v
  | [], f, rest, vs, h => by
    cases h
    exact ⟨rfl, by simp, fun i k hk => by cases hk⟩
  | k :: ks, f, rest, vs, h => by
    unfold unpackAll at h
    cases hp : unpack k (f.take k.width) with
    | error e => rw [hp] at h; cases h
    | ok v =>
      cases hq : unpackAll ks (f.drop k.width) with
      | error e => rw [hp, hq] at h; cases h
      | ok r =>
        obtain ⟨ws, r'⟩ := r
        rw [hp, hq] at h
        cases h
        obtain ⟨g1, g2, g3⟩ := unpackAll_ok hq
        refine ⟨by simp [g1], by rw [g2, List.drop_drop]; simp, ?_⟩
        intro i k' hk
        cases i with
        | zero =>
          cases hk
          refine ⟨v, rfl, ?_⟩
          have := unpack_ok hp (List.length_take_le _ _)
          simpa [offset] using this
        | succ i =>
          obtain ⟨w, hw, hs⟩ := g3 i k' hk
          refine ⟨w, hw, ?_⟩
          have : offset (k :: ks) (i + 1) = k.width + offset ks i := by
            unfold offset
            simp
          rw [this, ← List.drop_drop]
          exact hs

/-- The table of the fields is the layout of the code. -/
theorem fields_ok : ∀ e ∈ fields, ∃ k, layout[e.1 - 1]? = some k ∧ fieldOf k = e.2.2 ∧ offset layout (e.1 - 1) = e.2.1 := by
  have : fields.all (fun e => match layout[e.1 - 1]? with
    | some k => decide (fieldOf k = e.2.2 ∧ offset layout (e.1 - 1) = e.2.1)
    | none => false) = true := by decide +kernel
  intro e he
  have := (List.all_eq_true.1 this) e he
  cases hk : layout[e.1 - 1]? with
  | none => rw [hk] at this; cases this
  | some k =>
    rw [hk] at this
    simp only [decide_eq_true_eq] at this
    exact ⟨k, rfl, this⟩

end Verif.Lemmas.Digitalsurf
