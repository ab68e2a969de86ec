import Verif.Lemmas.HypermapPixel
/-! Lemmas about the decoders of Bruker maps: pixels, lines, maps. -/
namespace Verif.Hypermap
open Verif

theorem pulses_lt {k : Content} (h : k.Wf) : k.pulses < 2 ^ 16 := by
  cases k with
  | pulses16 ps => exact h.1
  | pulses12 ps => exact h.1
  | packed bs extra => exact h.2.2.1

theorem size_lt {k : Content} (h : k.Wf) : k.size < 2 ^ 32 := by
  cases k with
  | pulses16 ps =>
    show (ps.flatMap (leBytes 2)).length < _
    rw [flat_length]
    have := h.1
    omega
  | pulses12 ps =>
    show (pack12 ps).length < _
    have := pack12_length ps
    have := h.1
    omega
  | packed bs extra =>
    show (bs.flatMap Bunch.bytes).length + 4 < _
    have := h.2.1
    omega

theorem flag_lt {k : Content} {f : Nat} (h : k.flag f) : f < 2 ^ 16 := by
  cases k with
  | pulses16 ps => simp [Content.flag] at h; omega
  | pulses12 ps => simp [Content.flag] at h; omega
  | packed bs extra => exact h.2

theorem head_length {p : Px} (hw : p.Wf) : p.head.length = 22 := by
  obtain ⟨hx, hc1, hc2, ha, hf, hb, hcw⟩ := hw
  unfold Px.head
  simp only [List.length_append, leBytes_length, ha, hb]

theorem headOf_ok {p : Px} (hw : p.Wf) :
    headOf p.head = ⟨p.x, p.chan1, p.chan2, p.flag, p.content.pulses, p.content.size⟩ := by
  obtain ⟨hx, hc1, hc2, ha, hf, hb, hcw⟩ := hw
  have hpulses := pulses_lt hcw
  have hsize := size_lt hcw
  have hflag := flag_lt hf
  have d4 : p.head.drop 4 = _ := List.drop_left' (leBytes_length ..)
  have d6 := (by rw [List.drop_drop] : p.head.drop 6 = (p.head.drop 4).drop 2).trans
    ((congrArg (List.drop 2) d4).trans (List.drop_left' (leBytes_length ..)))
  have d8 := (by rw [List.drop_drop] : p.head.drop 8 = (p.head.drop 6).drop 2).trans
    ((congrArg (List.drop 2) d6).trans (List.drop_left' (leBytes_length ..)))
  have d12 := (by rw [List.drop_drop] : p.head.drop 12 = (p.head.drop 8).drop 4).trans
    ((congrArg (List.drop 4) d8).trans (List.drop_left' ha))
  have d14 := (by rw [List.drop_drop] : p.head.drop 14 = (p.head.drop 12).drop 2).trans
    ((congrArg (List.drop 2) d12).trans (List.drop_left' (leBytes_length ..)))
  have d16 := (by rw [List.drop_drop] : p.head.drop 16 = (p.head.drop 14).drop 2).trans
    ((congrArg (List.drop 2) d14).trans (List.drop_left' hb))
  have d18 := (by rw [List.drop_drop] : p.head.drop 18 = (p.head.drop 16).drop 2).trans
    ((congrArg (List.drop 2) d16).trans (List.drop_left' (leBytes_length ..)))
  unfold headOf
  rw [d4, d6, d12, d16, d18, show p.head.take 4 = leBytes 4 p.x from List.take_left' (leBytes_length ..),
    List.take_left' (leBytes_length ..), List.take_left' (leBytes_length ..), List.take_left' (leBytes_length ..),
    List.take_left' (leBytes_length ..), List.take_of_length_le (by rw [leBytes_length]),
    leVal_leBytes (by simpa using hx), leVal_leBytes (by simpa using hc1), leVal_leBytes (by simpa using hc2),
    leVal_leBytes (by simpa using hflag), leVal_leBytes (by simpa using hpulses), leVal_leBytes (by simpa using hsize)]

theorem pulses_count {ps : List Nat} {chan1 cutoff : Nat} (h0 : 0 < chan1) (h1 : ∀ q ∈ ps, q < chan1)
    (h2 : cutoff < chan1 ∨ chan1 - 1 ∈ ps) :
    (bincount ps (chan1 - 1)).take (min cutoff chan1) = (List.range (min cutoff chan1)).map (fun c => ps.count c) ∧
    ∀ c, min cutoff chan1 ≤ c → c < cutoff → ps.count c = 0 := by
  constructor
  · refine bincount_take ?_
    rcases h2 with h2 | h2
    · left; omega
    · right; exact ⟨_, h2, by omega⟩
  · intro c hc hn
    rw [List.count_eq_zero]
    intro hm
    have := h1 c hm
    omega

/-- What the Python decoder finds in a pixel. -/
theorem pyContent_ok {chnk cutoff M : Nat} {p : Px} {s : Src} {R : List UInt8} (hw : p.Wf) (hs : p.content.Small chnk)
    (hp : p.Python cutoff) (h : Rep chnk s (p.content.data ++ (p.content.tail ++ R)))
    (hc : ((p.content.data ++ p.content.tail).length : Int) < claimed chnk s) :
    ∃ pixel lst s', pyContent chnk ⟨p.x, p.chan1, p.chan2, p.flag, p.content.pulses, p.content.size⟩ s =
        .ok ((pixel, lst), s') ∧ Rep chnk s' R ∧
      claimed chnk s' = claimed chnk s - (p.content.data ++ p.content.tail).length ∧
      pixel.take (min cutoff p.chan1) = (List.range (min cutoff p.chan1)).map p.content.count ∧
      (∀ c, min cutoff p.chan1 ≤ c → c < cutoff → p.content.count c = 0) ∧
      (p.content.Fits M cutoff → lst = true → ∀ c, c < min cutoff p.chan1 → p.content.count c < M) := by
  obtain ⟨x, chan1, chan2, a, flag, b, k⟩ := p
  obtain ⟨hx, hc1, hc2, ha, hf, hb, hcw⟩ := hw
  dsimp only at *
  cases k with
  | pulses16 ps =>
    obtain rfl : flag = 0 := hf
    obtain ⟨h0, h1, h2⟩ := hp
    dsimp only at h0 h1 h2
    have hlen : (Content.pulses16 ps).data.length = (Content.pulses16 ps).size := rfl
    have htail : (Content.pulses16 ps).tail = [] := rfl
    rw [htail, List.append_nil] at hc ⊢
    rw [htail, List.nil_append] at h
    obtain ⟨s1, e1, r1, n1, c1⟩ := pyNeed_ok h hs.1 (by rw [List.length_append]; omega) (by rw [← hlen]; exact hc)
    obtain ⟨R', hR⟩ := buf_append r1 (by omega)
    obtain ⟨k1, k2⟩ := pulses_count (cutoff := cutoff) h0 h1 h2
    refine ⟨bincount ps (chan1 - 1), false, adv (Content.pulses16 ps).size s1, ?_, ?_, ?_, k1, k2, ?_⟩
    · unfold pyContent
      dsimp only
      rw [e1]
      dsimp only
      rw [if_pos rfl, hR, List.take_left' hlen,
        show (Content.pulses16 ps).data = ps.flatMap (leBytes 2) from rfl, words16_ok hcw.2]
      dsimp only
      rw [if_neg (by omega)]
    · have := adv_ok r1 n1
      rwa [List.drop_left' hlen] at this
    · rw [claimed_adv, c1, hlen]
    · intro _ hl; cases hl
  | pulses12 ps =>
    obtain rfl : flag = 1 := hf
    obtain ⟨h0, h1, h2⟩ := hp
    dsimp only at h0 h1 h2
    have hlen : (Content.pulses12 ps).data.length = (Content.pulses12 ps).size := rfl
    have htail : (Content.pulses12 ps).tail = [] := rfl
    rw [htail, List.append_nil] at hc ⊢
    rw [htail, List.nil_append] at h
    obtain ⟨s1, e1, r1, n1, c1⟩ := pyNeed_ok h hs.1 (by rw [List.length_append]; omega) (by rw [← hlen]; exact hc)
    obtain ⟨R', hR⟩ := buf_append r1 (by omega)
    obtain ⟨k1, k2⟩ := pulses_count (cutoff := cutoff) h0 h1 h2
    refine ⟨bincount ps (chan1 - 1), false, adv (Content.pulses12 ps).size s1, ?_, ?_, ?_, k1, k2, ?_⟩
    · unfold pyContent
      dsimp only
      rw [e1]
      dsimp only
      rw [if_neg (by decide), if_pos rfl, hR, List.take_left' hlen,
        show (Content.pulses12 ps).data = pack12 ps from rfl,
        show (Content.pulses12 ps).pulses = ps.length from rfl, py12_ok hcw.2]
      dsimp only
      rw [if_neg (by omega)]
    · have := adv_ok r1 n1
      rwa [List.drop_left' hlen] at this
    · rw [claimed_adv, c1, hlen]
    · intro _ hl; cases hl
  | packed bs extra =>
    obtain ⟨hf1, hf2⟩ := hf
    obtain ⟨hw1, hw2, hw3, hw4⟩ := hcw
    obtain ⟨h0, h1, h2⟩ := hp
    dsimp only at h0 h1 h2
    have hdata : (Content.packed bs extra).data = bs.flatMap Bunch.bytes := rfl
    have hsz : (Content.packed bs extra).size = (bs.flatMap Bunch.bytes).length + 4 := rfl
    have htail : (Content.packed bs extra).tail = leBytes 4 (2 * extra.length) ++ extra.flatMap (leBytes 2) := rfl
    have htl : (Content.packed bs extra).tail.length = 4 + extra.length * 2 := by
      rw [htail, List.length_append, leBytes_length, flat_length]
    have hs2 := hs.2
    rw [htl] at hs2
    rw [List.length_append, htl, hdata] at hc ⊢
    obtain ⟨s1, e1, r1, n1, c1⟩ := pyNeed_ok h hs.1 (by
      rw [List.length_append, List.length_append, htl, hdata, hsz]; omega) (by rw [hsz]; omega)
    rw [hdata] at r1
    rw [hsz] at n1
    obtain ⟨R', hR⟩ := buf_append r1 (by omega)
    have r2 := adv_ok (k := (bs.flatMap Bunch.bytes).length) r1 (by omega)
    rw [List.drop_left' rfl, htail, List.append_assoc] at r2
    -- the pixel without additional pulses
    let vs := bs.flatMap Bunch.values ++ List.replicate (chan1 - chan2) 0
    have hvl : vs.length = chan1 := by
      show (bs.flatMap Bunch.values ++ List.replicate (chan1 - chan2) 0).length = chan1
      rw [List.length_append, List.length_replicate]
      omega
    have hvg : ∀ c, c < chan1 → vs[c]? = some ((bs.flatMap Bunch.values)[c]?.getD 0) := by
      intro c hcc
      show (bs.flatMap Bunch.values ++ List.replicate (chan1 - chan2) 0)[c]? = _
      by_cases hl : c < (bs.flatMap Bunch.values).length
      · rw [List.getElem?_append_left hl, List.getElem?_eq_getElem hl]
        rfl
      · rw [List.getElem?_append_right (by omega), List.getElem?_replicate, if_pos (by omega),
          List.getElem?_eq_none_iff.2 (by omega)]
        rfl
    have hzero : ∀ c, min cutoff chan1 ≤ c → c < cutoff → (Content.packed bs extra).count c = 0 := by
      intro c hcc hcn
      show (bs.flatMap Bunch.values)[c]?.getD 0 + extra.count c = 0
      rw [List.getElem?_eq_none_iff.2 (by omega), List.count_eq_zero.2 (by
        intro hm
        have := h2 c hm
        omega)]
      rfl
    have hfits : (Content.packed bs extra).Fits M cutoff → true = true → ∀ c, c < min cutoff chan1 →
        (Content.packed bs extra).count c < M := by
      intro hfit _ c hcc
      exact hfit c (by omega)
    have htake : ∀ pixel : List Nat, (∀ c, c < chan1 → pixel[c]? = some ((Content.packed bs extra).count c)) →
        pixel.take (min cutoff chan1) = (List.range (min cutoff chan1)).map (Content.packed bs extra).count := by
      intro pixel hpx
      refine List.ext_getElem? ?_
      intro c
      rw [List.getElem?_take, List.getElem?_map]
      by_cases hcc : c < min cutoff chan1
      · rw [if_pos hcc, hpx c (by omega), List.getElem?_range hcc]
        rfl
      · rw [if_neg hcc, List.getElem?_eq_none_iff.2 (by simp; omega)]
        rfl
    have hrun : ∀ res, (let s := adv (bs.flatMap Bunch.bytes).length s1
        if 0 < extra.length then
          if s.buf.length < 4 then (.error .structError : Py ((List Nat × Bool) × Src))
          else
            let size := leVal (s.buf.take 4)
            match pyNeed chnk size (adv 4 s) with
            | .error e => .error e
            | .ok s =>
              if (s.buf.take size).length ≠ 2 * extra.length then .error .structError
              else match addPulses (codes 2 extra.length (s.buf.take size)) vs with
                | .error e => .error e
                | .ok vs => .ok ((vs, true), adv size s)
        else .ok ((vs, true), adv 4 s)) = res →
        pyContent chnk ⟨x, chan1, chan2, flag, (Content.packed bs extra).pulses, (Content.packed bs extra).size⟩ s = res := by
      intro res hres
      unfold pyContent
      dsimp only
      rw [e1]
      dsimp only
      rw [if_neg (by omega), if_neg (by omega), hsz, Nat.add_sub_cancel]
      have hin := pyInstr_ok (R := R') hw1
      rw [← hR] at hin
      rw [hin]
      exact hres
    by_cases he : 0 < extra.length
    · obtain ⟨R2, hR2⟩ := buf_append r2 (by
        rw [leBytes_length]
        show 4 ≤ (s1.buf.drop _).length
        rw [List.length_drop]
        omega)
      have r3 := adv_ok (k := 4) r2 (by rw [hR2, List.length_append, leBytes_length]; omega)
      rw [List.drop_left' (leBytes_length ..)] at r3
      obtain ⟨s3, e3, r4, n4, c4⟩ := pyNeed_ok (n := extra.length * 2) r3 (by omega) (by
        rw [List.length_append, flat_length]; omega) (by
        rw [claimed_adv, claimed_adv, c1]
        omega)
      obtain ⟨R3, hR3⟩ := buf_append r4 (by rw [flat_length]; exact n4)
      obtain ⟨pixel, hp1, hp2⟩ := addPulses_ok (cs := extra) (pixel := vs) (by
        intro c hcc
        rw [hvl]
        exact h2 c hcc)
      refine ⟨pixel, true, adv (extra.length * 2) s3, hrun _ ?_, ?_, ?_, htake _ ?_, hzero, hfits⟩
      · dsimp only
        have hval : leVal (leBytes 4 (2 * extra.length)) = extra.length * 2 := by
          rw [leVal_leBytes (by
            have : (256 : Nat) ^ 4 = 2 ^ 32 := by decide
            omega)]
          omega
        rw [if_pos he, hR2, if_neg (by rw [List.length_append, leBytes_length]; omega),
          List.take_left' (leBytes_length ..), hval, e3]
        dsimp only
        rw [hR3, List.take_left' (flat_length ..), flat_length, if_neg (by omega)]
        have := codes_ok (k := 2) (vs := extra) (R := []) (by simpa using hw4)
        rw [List.append_nil] at this
        rw [this, hp1]
      · have := adv_ok r4 n4
        rwa [List.drop_left' (flat_length ..)] at this
      · rw [claimed_adv, c4, claimed_adv, claimed_adv, c1]
        omega
      · intro c hcc
        rw [hp2, hvg c hcc]
        rfl
    · obtain rfl : extra = [] := List.eq_nil_iff_length_eq_zero.2 (by omega)
      have r3 := adv_ok (k := 4) r2 (by
        show 4 ≤ (s1.buf.drop _).length
        rw [List.length_drop]
        omega)
      rw [List.drop_left' (leBytes_length ..), List.flatMap_nil, List.nil_append] at r3
      refine ⟨vs, true, adv 4 (adv (bs.flatMap Bunch.bytes).length s1), hrun _ ?_, r3, ?_, htake _ ?_, hzero, hfits⟩
      · dsimp only
        rw [if_neg he]
      · rw [claimed_adv, claimed_adv, c1]
        simp only [List.length_nil]
        omega
      · intro c hcc
        rw [hvg c hcc]
        rfl

/-! ### Maps -/

/-- The map with the counts `δ`. -/
def mapOf (M H W n : Nat) (δ : Nat → Nat → Nat → Nat) : Map :=
  (List.range (H * W)).map fun j => row M n (δ (j / W) (j % W))

theorem index_lt {H W Y X : Nat} (hY : Y < H) (hX : X < W) : Y * W + X < H * W := by
  have : (Y + 1) * W ≤ H * W := Nat.mul_le_mul_right _ hY
  rw [Nat.add_mul] at this
  omega

theorem index_div {W Y X : Nat} (hX : X < W) : (Y * W + X) / W = Y := by
  rw [Nat.add_comm, Nat.add_mul_div_right _ _ (by omega), Nat.div_eq_of_lt hX, Nat.zero_add]

theorem index_mod {W Y X : Nat} (hX : X < W) : (Y * W + X) % W = X := by
  rw [Nat.add_comm, Nat.add_mul_mod_self_right, Nat.mod_eq_of_lt hX]

theorem mapOf_get {M H W n : Nat} {δ : Nat → Nat → Nat → Nat} {Y X : Nat} (hY : Y < H) (hX : X < W) :
    (mapOf M H W n δ)[Y * W + X]? = some (row M n (δ Y X)) := by
  unfold mapOf
  rw [List.getElem?_map, List.getElem?_range (index_lt hY hX), Option.map_some, index_div hX, index_mod hX]

theorem mapOf_set {M H W n : Nat} {δ : Nat → Nat → Nat → Nat} {Y X : Nat} {g : Nat → Nat} (hX : X < W) :
    (mapOf M H W n δ).set (Y * W + X) (row M n fun c => δ Y X c + g c) =
      mapOf M H W n fun Y' X' c => δ Y' X' c + if Y = Y' ∧ X = X' then g c else 0 := by
  unfold mapOf
  refine List.ext_getElem? ?_
  intro j
  rw [List.getElem?_set, List.getElem?_map, List.getElem?_map]
  by_cases hj : j < H * W
  · rw [List.getElem?_range hj]
    by_cases e : Y * W + X = j
    · rw [if_pos e, if_pos (by simpa [e] using hj)]
      subst e
      simp only [Option.map_some, index_div hX, index_mod hX, and_self, if_true]
    · rw [if_neg e]
      simp only [Option.map_some]
      congr 1
      refine row_congr ?_
      intro c _
      rw [if_neg]
      · rfl
      · rintro ⟨h1, h2⟩
        apply e
        rw [h1, h2, Nat.mul_comm]
        exact Nat.div_add_mod j W
  · rw [List.getElem?_eq_none_iff.2 (by simpa using hj)]
    by_cases e : Y * W + X = j
    · rw [if_pos e, if_neg (by simpa [e] using hj)]
      rfl
    · rw [if_neg e]
      rfl

theorem mapOf_congr {M H W n : Nat} {δ ε : Nat → Nat → Nat → Nat} (h : ∀ Y X c, δ Y X c = ε Y X c) :
    mapOf M H W n δ = mapOf M H W n ε := by
  have : δ = ε := by
    funext Y X c
    exact h Y X c
  rw [this]

/-! ### Lines, compiled -/

theorem cyPixels_ok {chnk M H W n ds y : Nat} (hc : 4 ≤ chnk) (hy : y / ds < H) :
    ∀ {l : List Px} {s : Src} {R : List UInt8} {δ : Nat → Nat → Nat → Nat},
    (∀ p ∈ l, p.Wf ∧ p.content.size ≤ chnk ∧ p.content.Compiled ∧ p.x / ds < W) →
    Rep chnk s (l.flatMap Px.bytes ++ R) →
    ∃ s', cyPixels chnk M H W n ds y l.length s (mapOf M H W n δ) =
      .ok (mapOf M H W n fun Y X c => δ Y X c + if y / ds = Y then lineTotal ds X c l else 0, s') ∧ Rep chnk s' R
  | [], s, R, δ, _, h => by
    refine ⟨s, ?_, by simpa using h⟩
    rw [List.length_nil, cyPixels]
    congr 2
    refine mapOf_congr ?_
    intro Y X c
    simp [lineTotal]
  | p :: l, s, R, δ, hl, h => by
    obtain ⟨h1, h2, h3, h4⟩ := hl p (List.mem_cons_self ..)
    rw [List.flatMap_cons, Px.bytes] at h
    simp only [List.append_assoc] at h
    obtain ⟨s1, e1, r1⟩ := cyHead_ok hc h1 h
    obtain ⟨s2, e2, r2⟩ := cyContent_ok (M := M) (n := n) (f := δ (y / ds) (p.x / ds)) hc h2 h1.2.2.2.2.2.2
      h1.2.2.2.2.1 h3 r1
    obtain ⟨s3, e3, r3⟩ := cyPixels_ok (M := M) (n := n) (δ := fun Y X c => δ Y X c + if y / ds = Y ∧ p.x / ds = X then
      p.content.count c else 0) hc hy (fun q hq => hl q (List.mem_cons_of_mem _ hq)) r2
    refine ⟨s3, ?_, r3⟩
    rw [List.length_cons, cyPixels, e1]
    dsimp only
    rw [if_pos ⟨hy, h4⟩, mapOf_get hy h4]
    dsimp only
    rw [e2]
    dsimp only
    rw [mapOf_set h4, e3]
    congr 2
    refine mapOf_congr ?_
    intro Y X c
    rw [lineTotal]
    by_cases hY : y / ds = Y
    · by_cases hX : p.x / ds = X
      · rw [if_pos ⟨hY, hX⟩, if_pos hY, if_pos hY, if_pos hX]; omega
      · rw [if_neg (by tauto), if_pos hY, if_pos hY, if_neg hX]; omega
    · rw [if_neg (by tauto), if_neg hY, if_neg hY]

theorem cyLines_ok {chnk M H W n ds : Nat} (hc : 4 ≤ chnk) :
    ∀ {ls : List (List Px)} {y : Nat} {s : Src} {R : List UInt8} {δ : Nat → Nat → Nat → Nat},
    (∀ l ∈ ls, l.length < 2 ^ 31 ∧ ∀ p ∈ l, p.Wf ∧ p.content.size ≤ chnk ∧ p.content.Compiled ∧ p.x / ds < W) →
    (∀ k, k < ls.length → (y + k) / ds < H) →
    Rep chnk s (ls.flatMap lineBytes ++ R) →
    cyLines chnk M H W n ds y ls.length s (mapOf M H W n δ) =
      .ok (mapOf M H W n fun Y X c => δ Y X c + total ds Y X c y ls)
  | [], y, s, R, δ, _, _, h => by
    rw [List.length_nil, cyLines]
    congr 1
  | l :: ls, y, s, R, δ, hl, hy, h => by
    obtain ⟨h1, h2⟩ := hl l (List.mem_cons_self ..)
    rw [List.flatMap_cons, lineBytes] at h
    simp only [List.append_assoc] at h
    obtain ⟨s1, e1, r1⟩ := cyRead_ok h (leBytes_length ..) hc
    obtain ⟨s2, e2, r2⟩ := cyPixels_ok (M := M) (n := n) (δ := δ) hc (hy 0 (by simp)) h2 r1
    rw [List.length_cons, cyLines, e1]
    dsimp only
    rw [leVal_leBytes (by
      have : (256 : Nat) ^ 4 = 2 ^ 32 := by decide
      omega), Nat.add_zero] at *
    rw [e2]
    dsimp only
    rw [cyLines_ok hc (fun q hq => hl q (List.mem_cons_of_mem _ hq)) (by
      intro k hk
      have := hy (k + 1) (by simpa using hk)
      rwa [show y + (k + 1) = y + 1 + k by omega] at this) r2]
    congr 1
    refine mapOf_congr ?_
    intro Y X c
    rw [total]
    omega

/-! ### Lines, Python -/

theorem pyPixels_ok {chnk M H width n ds y : Nat} (hc : 22 ≤ chnk) (hy : y / ds < H) :
    ∀ {l : List Px} {s : Src} {R : List UInt8} {δ : Nat → Nat → Nat → Nat},
    (∀ p ∈ l, p.Wf ∧ p.content.Small chnk ∧ p.Python n ∧ p.x / ds < ceilDiv width ds) →
    (ds = 1 → (l.map Px.x).Nodup ∧ ∀ p ∈ l, p.content.Fits M n ∧ ∀ c, c < n → δ y p.x c = 0) →
    Rep chnk s (l.flatMap Px.bytes ++ R) → ((l.flatMap Px.bytes).length : Int) < claimed chnk s →
    ∃ s', pyPixels chnk M width n ds y l.length s (mapOf M H (ceilDiv width ds) n δ) =
      .ok (mapOf M H (ceilDiv width ds) n fun Y X c => δ Y X c + if y / ds = Y then lineTotal ds X c l else 0, s') ∧
      Rep chnk s' R ∧ claimed chnk s' = claimed chnk s - (l.flatMap Px.bytes).length
  | [], s, R, δ, _, _, h, _ => by
    refine ⟨s, ?_, by simpa using h, by simp⟩
    rw [List.length_nil, pyPixels]
    congr 2
    refine mapOf_congr ?_
    intro Y X c
    simp [lineTotal]
  | p :: l, s, R, δ, hl, hds, h, hcl => by
    obtain ⟨h1, h2, h3, h4⟩ := hl p (List.mem_cons_self ..)
    have hlen : ((p :: l).flatMap Px.bytes).length =
        22 + (p.content.data ++ p.content.tail).length + (l.flatMap Px.bytes).length := by
      rw [List.flatMap_cons, Px.bytes, List.length_append, List.length_append, head_length h1]
    rw [hlen] at hcl ⊢
    rw [List.flatMap_cons, Px.bytes] at h
    simp only [List.append_assoc] at h
    obtain ⟨s1, e1, r1, n1, c1⟩ := pyNeed_ok (n := 22) h hc (by rw [List.length_append, head_length h1]; omega)
      (by omega)
    obtain ⟨R1, hR1⟩ := buf_append r1 (by rw [head_length h1]; exact n1)
    have r2 := adv_ok r1 n1
    rw [List.drop_left' (head_length h1)] at r2
    obtain ⟨pixel, lst, s2, e2, r3, c3, k1, k2, k3⟩ := pyContent_ok (M := M) h1 h2 h3 r2 (by
      rw [claimed_adv, c1]; omega)
    have hst : pyStore M (ds ≠ 1) lst (min n p.chan1) (row M n (δ (y / ds) (p.x / ds))) pixel =
        .ok (row M n fun c => δ (y / ds) (p.x / ds) c + p.content.count c) := by
      refine pyStore_ok (by omega) k1 k2 ?_
      intro hd
      obtain rfl : ds = 1 := by simpa using hd
      obtain ⟨f1, f2⟩ := (hds rfl).2 p (List.mem_cons_self ..)
      rw [Nat.div_one, Nat.div_one]
      exact ⟨f2, k3 f1⟩
    obtain ⟨s3, e3, r4, c4⟩ := pyPixels_ok (M := M) (n := n)
      (δ := fun Y X c => δ Y X c + if y / ds = Y ∧ p.x / ds = X then p.content.count c else 0) hc hy
      (fun q hq => hl q (List.mem_cons_of_mem _ hq)) (by
        intro e
        obtain ⟨hn, hf⟩ := hds e
        rw [List.map_cons, List.nodup_cons] at hn
        refine ⟨hn.2, ?_⟩
        intro q hq
        obtain ⟨f1, f2⟩ := hf q (List.mem_cons_of_mem _ hq)
        refine ⟨f1, ?_⟩
        intro c hcn
        rw [f2 c hcn, if_neg]
        rintro ⟨-, hx⟩
        subst e
        rw [Nat.div_one] at hx
        exact hn.1 (by rw [hx]; exact List.mem_map_of_mem hq)) r3 (by
        rw [c3, claimed_adv, c1]; omega)
    refine ⟨s3, ?_, r4, ?_⟩
    · rw [List.length_cons, pyPixels, e1]
      dsimp only
      rw [if_neg (by omega), hR1, List.take_left' (head_length h1), headOf_ok h1]
      dsimp only
      rw [e2]
      dsimp only
      rw [show p.x / ds + ceilDiv width ds * (y / ds) = y / ds * ceilDiv width ds + p.x / ds by
        rw [Nat.mul_comm]; omega, mapOf_get hy h4]
      dsimp only
      rw [hst]
      dsimp only
      rw [mapOf_set h4, e3]
      congr 2
      refine mapOf_congr ?_
      intro Y X c
      rw [lineTotal]
      by_cases hY : y / ds = Y
      · by_cases hX : p.x / ds = X
        · rw [if_pos ⟨hY, hX⟩, if_pos hY, if_pos hY, if_pos hX]; omega
        · rw [if_neg (by tauto), if_pos hY, if_pos hY, if_neg hX]; omega
      · rw [if_neg (by tauto), if_neg hY, if_neg hY]
    · rw [c4, c3, claimed_adv, c1]
      omega

theorem pyLines_ok {chnk M H width n ds : Nat} (hc : 22 ≤ chnk) :
    ∀ {ls : List (List Px)} {y : Nat} {s : Src} {R : List UInt8} {δ : Nat → Nat → Nat → Nat},
    (∀ l ∈ ls, l.length < 2 ^ 31 ∧ (ds = 1 → (l.map Px.x).Nodup) ∧
      ∀ p ∈ l, p.Wf ∧ p.content.Small chnk ∧ p.Python n ∧ p.x / ds < ceilDiv width ds ∧
        (ds = 1 → p.content.Fits M n)) →
    (∀ k, k < ls.length → (y + k) / ds < H) →
    (ds = 1 → ∀ Y X c, y ≤ Y → c < n → δ Y X c = 0) →
    Rep chnk s (ls.flatMap lineBytes ++ R) → ((ls.flatMap lineBytes).length : Int) < claimed chnk s →
    pyLines chnk M width n ds y ls.length s (mapOf M H (ceilDiv width ds) n δ) =
      .ok (mapOf M H (ceilDiv width ds) n fun Y X c => δ Y X c + total ds Y X c y ls)
  | [], y, s, R, δ, _, _, _, h, _ => by
    rw [List.length_nil, pyLines]
    congr 1
  | l :: ls, y, s, R, δ, hl, hy, hz, h, hcl => by
    obtain ⟨h1, h2, h3⟩ := hl l (List.mem_cons_self ..)
    have hlen : ((l :: ls).flatMap lineBytes).length =
        4 + (l.flatMap Px.bytes).length + (ls.flatMap lineBytes).length := by
      rw [List.flatMap_cons, lineBytes, List.length_append, List.length_append, leBytes_length]
    rw [hlen] at hcl
    rw [List.flatMap_cons, lineBytes] at h
    simp only [List.append_assoc] at h
    obtain ⟨s1, e1, r1, n1, c1⟩ := pyNeed_ok (n := 4) h (by omega) (by rw [List.length_append, leBytes_length]; omega)
      (by omega)
    obtain ⟨R1, hR1⟩ := buf_append r1 (by rw [leBytes_length]; exact n1)
    have r2 := adv_ok r1 n1
    rw [List.drop_left' (leBytes_length ..)] at r2
    have hy0 : y / ds < H := by
      have := hy 0 (by simp)
      rwa [Nat.add_zero] at this
    obtain ⟨s2, e2, r3, c3⟩ := pyPixels_ok (M := M) (n := n) (δ := δ) hc hy0
      (fun p hp => ⟨(h3 p hp).1, (h3 p hp).2.1, (h3 p hp).2.2.1, (h3 p hp).2.2.2.1⟩) (by
        intro e
        refine ⟨h2 e, ?_⟩
        intro p hp
        exact ⟨(h3 p hp).2.2.2.2 e, fun c hcn => hz e y p.x c (Nat.le_refl _) hcn⟩) r2 (by
        rw [claimed_adv, c1]; omega)
    have hval : (toSigned 4 (leVal (leBytes 4 l.length))).toNat = l.length := by
      have : (256 : Nat) ^ 4 = 2 * 2 ^ 31 := by decide
      rw [leVal_leBytes (by omega)]
      unfold toSigned
      rw [if_pos (by omega)]
      omega
    rw [List.length_cons, pyLines, e1]
    dsimp only
    rw [if_neg (by omega), hR1, List.take_left' (leBytes_length ..), hval, e2]
    dsimp only
    rw [pyLines_ok hc (fun q hq => hl q (List.mem_cons_of_mem _ hq)) (by
        intro k hk
        have := hy (k + 1) (by simpa using hk)
        rwa [show y + (k + 1) = y + 1 + k by omega] at this) (by
        intro e Y X c hYy hcn
        subst e
        rw [hz rfl Y X c (by omega) hcn, Nat.div_one, if_neg (by omega)]) r3 (by
        rw [c3, claimed_adv, c1]; omega)]
    congr 1
    refine mapOf_congr ?_
    intro Y X c
    rw [total]
    omega

theorem mapOf_zero (M H W n : Nat) :
    mapOf M H W n (fun _ _ _ => 0) = List.replicate (H * W) (List.replicate n 0) := by
  unfold mapOf row
  simp only [Nat.zero_mod, List.map_const', List.length_range]

/-! ### Maps -/

theorem first_ok {chnk : Nat} {b : List UInt8} {bs : List (List UInt8)} {B : List UInt8}
    (hcut : Cut chnk (b :: bs)) (hB : (b :: bs).flatten = B) : Rep chnk ⟨bs, b, chnk⟩ B ∧
      (chnk ≤ b.length ∨ b.length = B.length) := by
  cases bs with
  | nil =>
    refine ⟨⟨by simpa using hB, trivial, Or.inl ⟨rfl, ?_⟩⟩, Or.inr ?_⟩
    · have := hcut.2
      show (b.length : Int) ≤ (chnk : Int)
      omega
    · rw [← hB]; simp
  | cons b' bs =>
    refine ⟨⟨by simpa using hB, hcut.2, Or.inr ⟨by simp, ?_⟩⟩, Or.inl ?_⟩
    · have := hcut.1
      show (chnk : Int) = (b.length : Int)
      omega
    · rw [hcut.1]

theorem mapBytes_length {width : Nat} {junk : List UInt8} {lines : List (List Px)} (hj : junk.length = 0x1a0 - 8) :
    (mapBytes width junk lines).length = 0x1a0 + (lines.flatMap lineBytes).length := by
  unfold mapBytes
  simp only [List.length_append, leBytes_length, hj]

theorem ceilDiv_lt {a b n : Nat} (hb : 0 < b) (h : a < n) : a / b < ceilDiv n b := by
  unfold ceilDiv
  rw [Nat.div_lt_iff_lt_mul hb]
  have h1 := Nat.div_add_mod (n + b - 1) b
  have h2 := Nat.mod_lt (n + b - 1) hb
  rw [Nat.mul_comm] at h1
  omega

theorem cyRead_now {chnk n : Nat} {s : Src} (h1 : (n : Int) ≤ s.left) (h2 : n ≤ s.buf.length) :
    cyRead chnk n s = .ok (leVal (s.buf.take n), adv n s) := by
  unfold cyRead cyNeed
  rw [if_neg (by omega)]
  dsimp only
  rw [if_neg (by omega)]

/-- The compiled decoder. -/
theorem cyParse_ok {chnk M cutoff ds width : Nat} {blocks : List (List UInt8)} {junk trailing : List UInt8}
    {lines : List (List Px)} (hc : 0x1a0 ≤ chnk) (hcut : Cut chnk blocks)
    (hB : blocks.flatten = mapBytes width junk lines ++ trailing) (hj : junk.length = 0x1a0 - 8) (hds : 0 < ds)
    (hn : lines.length < 2 ^ 31)
    (hl : ∀ l ∈ lines, l.length < 2 ^ 31 ∧
      ∀ p ∈ l, p.Wf ∧ p.content.size ≤ chnk ∧ p.content.Compiled ∧ p.x < width) :
    cyParse blocks chnk M (ceilDiv lines.length ds) (ceilDiv width ds) cutoff ds =
      .ok (mapOf M (ceilDiv lines.length ds) (ceilDiv width ds) cutoff fun Y X c => total ds Y X c 0 lines) := by
  have hlen := mapBytes_length (width := width) (lines := lines) hj
  cases blocks with
  | nil =>
    have := congrArg List.length hB
    rw [List.length_append, hlen] at this
    simp at this
    omega
  | cons b bs =>
    obtain ⟨r, hb⟩ := first_ok hcut hB
    rw [List.length_append, hlen] at hb
    have hb' : 0x1a0 ≤ b.length := by omega
    have hpre : b.take 4 = leBytes 4 lines.length := by
      have := congrArg (List.take 4) r.bytes
      rw [List.take_append_of_le_length (by show 4 ≤ b.length; omega)] at this
      rw [show b.take 4 = _ from this]
      unfold mapBytes
      simp only [List.append_assoc]
      exact List.take_left' (leBytes_length ..)
    unfold cyParse
    dsimp only
    rw [cyRead_now (by show ((4 : Nat) : Int) ≤ (chnk : Int); omega) (by show 4 ≤ b.length; omega)]
    dsimp only
    rw [cyRead_now (by show ((4 : Nat) : Int) ≤ (chnk : Int) - (4 : Nat); omega)
      (by show 4 ≤ (b.drop 4).length; rw [List.length_drop]; omega)]
    dsimp only
    rw [hpre, leVal_leBytes (by
      have : (256 : Nat) ^ 4 = 2 * 2 ^ 31 := by decide
      omega), ← mapOf_zero M]
    have r1 := adv_ok (k := 4) r (by show 4 ≤ b.length; omega)
    have r2 := adv_ok (k := 4) r1 (by show 4 ≤ (b.drop 4).length; rw [List.length_drop]; omega)
    have r3 := adv_ok (k := 0x1a0 - 8) r2 (by
      show 0x1a0 - 8 ≤ ((b.drop 4).drop 4).length
      rw [List.length_drop, List.length_drop]; omega)
    rw [List.drop_drop, List.drop_drop] at r3
    have hdrop : (mapBytes width junk lines ++ trailing).drop (4 + 4 + (0x1a0 - 8)) =
        lines.flatMap lineBytes ++ trailing := by
      unfold mapBytes
      rw [List.append_assoc]
      refine List.drop_left' ?_
      simp only [List.length_append, leBytes_length, hj]
    rw [hdrop] at r3
    have := cyLines_ok (M := M) (n := cutoff) (ds := ds) (H := ceilDiv lines.length ds) (W := ceilDiv width ds)
      (δ := fun _ _ _ => 0) (y := 0) (by omega : 4 ≤ chnk)
      (fun l hm => ⟨(hl l hm).1, fun p hp => ⟨((hl l hm).2 p hp).1, ((hl l hm).2 p hp).2.1, ((hl l hm).2 p hp).2.2.1,
        ceilDiv_lt hds ((hl l hm).2 p hp).2.2.2⟩⟩)
      (by intro k hk; rw [Nat.zero_add]; exact ceilDiv_lt hds hk) r3
    rw [this]
    congr 1
    refine mapOf_congr ?_
    intro Y X c
    omega

/-- The Python decoder. -/
theorem pyParse_ok {chnk M cutoff ds width : Nat} {blocks : List (List UInt8)} {junk trailing : List UInt8}
    {lines : List (List Px)} (hc : 0x1a0 ≤ chnk) (hcut : Cut chnk blocks)
    (hB : blocks.flatten = mapBytes width junk lines ++ trailing) (hj : junk.length = 0x1a0 - 8) (hds : 0 < ds)
    (hroom : (mapBytes width junk lines).length < blocks.length * chnk)
    (hn : lines.length < 2 ^ 31) (hwd : width < 2 ^ 31)
    (hl : ∀ l ∈ lines, l.length < 2 ^ 31 ∧ (ds = 1 → (l.map Px.x).Nodup) ∧
      ∀ p ∈ l, p.Wf ∧ p.content.Small chnk ∧ p.Python cutoff ∧ p.x < width ∧ (ds = 1 → p.content.Fits M cutoff)) :
    pyParse blocks chnk M (ceilDiv lines.length ds) (ceilDiv width ds) cutoff ds =
      .ok (mapOf M (ceilDiv lines.length ds) (ceilDiv width ds) cutoff fun Y X c => total ds Y X c 0 lines) := by
  have hlen := mapBytes_length (width := width) (lines := lines) hj
  cases blocks with
  | nil => simp at hroom
  | cons b bs =>
    obtain ⟨r, hb⟩ := first_ok hcut hB
    rw [List.length_append, hlen] at hb
    have hb' : 0x1a0 ≤ b.length := by omega
    have h256 : (256 : Nat) ^ 4 = 2 * 2 ^ 31 := by decide
    have hpre8 : b.take 8 = leBytes 4 lines.length ++ leBytes 4 width := by
      have := congrArg (List.take 8) r.bytes
      rw [List.take_append_of_le_length (by show 8 ≤ b.length; omega)] at this
      rw [show b.take 8 = _ from this]
      unfold mapBytes
      rw [List.append_assoc, List.append_assoc]
      refine List.take_left' ?_
      simp only [List.length_append, leBytes_length]
    have hpre : b.take 4 = leBytes 4 lines.length := by
      have : b.take 4 = (b.take 8).take 4 := by rw [List.take_take]; rfl
      rw [this, hpre8]
      exact List.take_left' (leBytes_length ..)
    have hpre' : (b.drop 4).take 4 = leBytes 4 width := by
      have : (b.drop 4).take 4 = (b.take 8).drop 4 := by rw [List.drop_take]
      rw [this, hpre8]
      exact List.drop_left' (leBytes_length ..)
    have hsign : ∀ v, v < 2 ^ 31 → (toSigned 4 (leVal (leBytes 4 v))).toNat = v := by
      intro v hv
      rw [leVal_leBytes (by omega)]
      unfold toSigned
      rw [if_pos (by omega)]
      omega
    unfold pyParse
    dsimp only
    rw [if_neg (by omega), hpre, hpre', hsign _ hn, hsign _ hwd, ← mapOf_zero M]
    have r3 := adv_ok (k := 0x1a0) r (by show 0x1a0 ≤ b.length; omega)
    have hdrop : (mapBytes width junk lines ++ trailing).drop 0x1a0 =
        lines.flatMap lineBytes ++ trailing := by
      unfold mapBytes
      rw [List.append_assoc]
      refine List.drop_left' ?_
      simp only [List.length_append, leBytes_length, hj]
    rw [hdrop] at r3
    have := pyLines_ok (M := M) (n := cutoff) (ds := ds) (H := ceilDiv lines.length ds) (width := width)
      (δ := fun _ _ _ => 0) (y := 0) (by omega : 22 ≤ chnk)
      (fun l hm => ⟨(hl l hm).1, (hl l hm).2.1, fun p hp => by
        obtain ⟨q1, q2, q3, q4, q5⟩ := (hl l hm).2.2 p hp
        exact ⟨q1, q2, q3, ceilDiv_lt hds q4, q5⟩⟩)
      (by intro k hk; rw [Nat.zero_add]; exact ceilDiv_lt hds hk) (by intros; rfl) r3 (by
        rw [claimed_adv]
        unfold claimed
        show _ < (chnk : Int) + _ - _
        rw [hlen, List.length_cons, Nat.add_mul, Nat.one_mul, Nat.mul_comm] at hroom
        show ((lines.flatMap lineBytes).length : Int) < (chnk : Int) + ((chnk * bs.length : Nat) : Int) - (0x1a0 : Nat)
        omega)
    rw [this]
    dsimp only
    have hml : ∀ δ, (mapOf M (ceilDiv lines.length ds) (ceilDiv width ds) cutoff δ).length =
        ceilDiv lines.length ds * ceilDiv width ds := by
      intro δ
      unfold mapOf
      rw [List.length_map, List.length_range]
    rw [hml, Nat.sub_self, List.replicate_zero, List.append_nil, List.take_of_length_le (by rw [hml])]
    congr 1
    refine mapOf_congr ?_
    intro Y X c
    omega

end Verif.Hypermap
