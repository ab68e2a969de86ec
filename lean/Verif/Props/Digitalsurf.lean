import Verif.Lemmas.DigitalsurfKinds
/-!
C68: fields, objects and files. C69: values. C70: signals. C71: headers in the original metadata.
-/
namespace Verif.Props.Digitalsurf
open Verif.Digitalsurf Verif.Spec.Digitalsurf Verif.Lemmas.Digitalsurf Verif.BytesSpec

/-! ### C68 -/

/-- C68. Every field of an object that is written has its place in the first 512 bytes; comment, private zone and points follow. -/
theorem C68_written {o : Obj} {b : Bytes} (h : writeObj o = .ok b) :
    (∀ e ∈ fields, ∃ v, o.vals[e.1 - 1]? = some v ∧ Stored e.2.2 v ((b.drop e.2.1).take e.2.2.width)) ∧
    ∃ c p, o.vals[49]? = some (.int c) ∧ o.vals[50]? = some (.int p) ∧ 0 ≤ c ∧ 0 ≤ p ∧
      TextBytes c.toNat o.comment ((b.drop 512).take c.toNat) ∧
      TextBytes p.toNat o.priv ((b.drop (512 + c.toNat)).take p.toNat) ∧
      ∃ n, b.drop (512 + c.toNat + p.toNat) = (o.points ++ List.replicate n 0).take n := by
  obtain ⟨H, K, P, h1, h2, h3, h4, h5, h6⟩ := writeObj_parts h
  obtain ⟨g1, g2, g3, -⟩ := packAll_ok h1
  obtain ⟨k1, k2, -⟩ := setStr_ok h4
  obtain ⟨p1, p2, -⟩ := setStr_ok h5
  have hH : H.length = 512 := g1.trans (by decide)
  generalize hN : (if textOf o.vals 1 ≠ tCompressed then rawSize o.vals else intOf o.vals 48).toNat = N at h6
  constructor
  · intro e he
    obtain ⟨k, e1, e2, e3⟩ := fields_ok e he
    obtain ⟨v, v1, v2⟩ := g3 _ k e1
    refine ⟨v, v1, ?_⟩
    rw [← e2, fieldOf_width, ← e3, h6]
    have hle : offset layout (e.1 - 1) + k.width ≤ H.length := by
      have : ∀ e ∈ fields, e.2.1 + e.2.2.width ≤ 512 := by decide +kernel
      have := this e he
      rw [← e2, fieldOf_width, ← e3] at this
      omega
    rw [List.append_assoc, List.append_assoc, List.drop_append_of_le_length (by omega),
      List.take_append_of_le_length (by rw [List.length_drop]; omega)]
    exact v2
  · have hfield : ∀ n : Nat, layout[n - 1]? = some .i16 → ∃ i, o.vals[n - 1]? = some (.int i) ∧ intOf o.vals n = i := by
      intro n hn
      obtain ⟨v, v1, v2⟩ := g3 _ _ hn
      cases v with
      | int i =>
        refine ⟨i, v1, ?_⟩
        unfold intOf
        rw [v1]
      | text t => exact v2.elim
      | float r => exact v2.elim
      | raw x => exact v2.elim
    obtain ⟨c, c1, c2⟩ := hfield 50 rfl
    obtain ⟨p, q1, q2⟩ := hfield 51 rfl
    rw [c2] at h2 k1 k2
    rw [q2] at h3 p1 p2
    refine ⟨c, p, c1, q1, h2, h3, ?_, ?_, N, ?_⟩
    · rw [h6, List.append_assoc, List.append_assoc, List.drop_left' hH, List.take_left' k2]
      exact k1
    · rw [h6, List.append_assoc, List.drop_left' (by rw [List.length_append, hH, k2]), List.take_left' p2]
      exact p1
    · rw [h6, List.drop_left' (by rw [List.length_append, List.length_append, hH, k2, p2]), fit_eq]

/-- C68. Every field of an object that is read shows the bytes of its place. -/
theorem C68_read {unzip : Bytes → Py Bytes} {f rest : Bytes} {r : Read} (h : readObj unzip f = .ok (r, rest)) :
    ∀ e ∈ fields, ∃ v, r.vals[e.1 - 1]? = some v ∧ Shows e.2.2 ((f.drop e.2.1).take e.2.2.width) v := by
  unfold readObj at h
  cases h1 : unpackAll layout f with
  | error e => rw [h1] at h; contradiction
  | ok x =>
    obtain ⟨vs, f'⟩ := x
    rw [h1] at h
    dsimp only at h
    have hv : r.vals = vs := by
      split at h
      · contradiction
      · split at h
        · contradiction
        · split at h
          · contradiction
          · cases h
            rfl
    obtain ⟨-, -, g3⟩ := unpackAll_ok h1
    intro e he
    obtain ⟨k, e1, e2, e3⟩ := fields_ok e he
    obtain ⟨v, v1, v2⟩ := g3 _ k e1
    refine ⟨v, by rw [hv]; exact v1, ?_⟩
    rw [← e2, fieldOf_width, ← e3]
    exact v2

/-- C68. The data of a file are compressed in any number of parts; the bytes of all numbers are read. -/
theorem C68_compressed {unzip : Bytes → Py Bytes} {zip : Bytes → Bytes} (hz : ∀ b, unzip (zip b) = .ok b)
    {w n : Nat} {l : List Int} {b : Bytes} (h : compress zip w n l = .ok b)
    (hl : ∀ i ∈ l, -(2 ^ (8 * w) : Int) ≤ 2 * i ∧ 2 * i < 2 ^ (8 * w)) (vs : List Val)
    (hs : vs[0]? = some (.text ("DSCOMPRESSED".toList))) (rest : Bytes) :
    ∃ chunks, readPoints unzip vs (b ++ rest) = .ok (List.flatten chunks, rest) ∧
      List.Forall₂ (fun i c => c.length = w ∧ Encodes false true c i) l chunks := by
  refine ⟨l.map fun i => leBytes w (ofSigned w i), ?_, ?_⟩
  · have := compress_read hz h vs (by unfold textOf; rw [hs]; decide) rest
    rw [this]
    unfold intBytes
    rw [List.flatMap_def]
  · rw [List.forall₂_map_right_iff, List.forall₂_same]
    intro i hi
    obtain ⟨h1, h2⟩ := hl i hi
    rw [pow_bytes] at h1 h2
    have hset : setInt w true i = .ok (leBytes w (ofSigned w i)) := by
      unfold setInt inRange
      rw [if_pos (decide_eq_true ⟨h1, h2⟩)]
    obtain ⟨g1, g2, -⟩ := setInt_ok hset
    exact ⟨g1, g2⟩

/-- C68. An object that was written is read again, wherever it stands in the file. -/
theorem C68_back {unzip : Bytes → Py Bytes} {zip : Bytes → Bytes} (hz : ∀ b, unzip (zip b) = .ok b)
    {junk : Int} (hj : -2147483648 ≤ junk ∧ junk ≤ 2147483647) {g : Args} {s : Split} {k : Text} {p : Part} {o : Obj} {b : Bytes}
    (hb : build id junk zip g s k p = .ok o) (hw : writeObj o = .ok b) 
    (hlen : p.points.length = (s.x.map Axis.size).getD 1 * (s.y.map Axis.size).getD 1 *
      max (if p.type = 21 then (s.t.map Axis.size).getD 0 else 0) 1)
    (hty : p.type ∈ [1, 2, 3, 4, 5, 10, 12, 18, 20, 21]) (hk : Keeps p.dtype p.type g.special (· ∈ p.points)) (rest : Bytes) :
    ∃ r, readObj unzip (b ++ rest) = .ok (r, rest) ∧
      (∀ e ∈ fields, ∃ v u, o.vals[e.1 - 1]? = some v ∧ r.vals[e.1 - 1]? = some u ∧ Back e.2.2 v u) ∧
      Trim (o.comment.take 32767) r.comment := by
  obtain ⟨r, n, d, c, r1, r2, r3, -, -⟩ := part_read hz hj hb hw hlen hty hk rest
  obtain ⟨n', data, cb, e1, e2, e3, rfl⟩ := build_ok hb
  refine ⟨r, r1, ?_, r3⟩
  have hw' := hw
  have : BackAll (header g s p.type n' data.length cb.length) r.vals := by
    obtain ⟨H, K, P, w1, w2, w3, w4, w5, w6⟩ := writeObj_parts hw
    obtain ⟨-, -, -, g4⟩ := packAll_ok w1
    rw [w6] at r1
    obtain ⟨us, g5, g6⟩ := g4 (K ++ (P ++ (fit (if textOf (header g s p.type n' data.length cb.length) 1 ≠ tCompressed then
      rawSize (header g s p.type n' data.length cb.length) else intOf (header g s p.type n' data.length cb.length) 48).toNat data ++ rest)))
    have hv : r.vals = us := by
      unfold readObj at r1
      rw [List.append_assoc, List.append_assoc, List.append_assoc] at r1
      dsimp only at r1
      rw [g5] at r1
      dsimp only at r1
      split at r1
      · contradiction
      · split at r1
        · contradiction
        · split at r1
          · contradiction
          · cases r1
            rfl
    rw [hv]
    exact g6
  intro e he
  obtain ⟨k', q1, q2, q3⟩ := fields_ok e he
  obtain ⟨v, u, v1, v2, v3⟩ := back_get this (hdr_len ..) q1
  rw [q2] at v3
  exact ⟨v, u, v1, v2, v3⟩

/-- C68. The arguments of the writer come back from their fields. -/
theorem C68_args {unzip : Bytes → Py Bytes} {zip : Bytes → Bytes} (hz : ∀ b, unzip (zip b) = .ok b)
    {junk : Int} (hj : -2147483648 ≤ junk ∧ junk ≤ 2147483647) {g : Args} {s : Split} {k : Text} {p : Part} {o : Obj} {b : Bytes}
    (hb : build id junk zip g s k p = .ok o) (hw : writeObj o = .ok b)
    (hlen : p.points.length = (s.x.map Axis.size).getD 1 * (s.y.map Axis.size).getD 1 *
      max (if p.type = 21 then (s.t.map Axis.size).getD 0 else 0) 1)
    (hty : p.type ∈ [1, 2, 3, 4, 5, 10, 12, 18, 20, 21]) (hk : Keeps p.dtype p.type g.special (· ∈ p.points)) (rest : Bytes) :
    ∃ r, readObj unzip (b ++ rest) = .ok (r, rest) ∧
      (∀ e ∈ [(6, 30, g.objectName), (7, 30, g.operatorName), (26, 16, g.zName), (29, 16, g.zUnit)],
        ∃ u, r.vals[e.1 - 1]? = some (.text u) ∧ Trim (e.2.2.take e.2.1) u) ∧
      (∀ e ∈ [(5, p.type), (11, if g.special then 1 else 0), (12, g.absolute), (3, (s.nObjects : Int)), (8, (s.nChannels : Int)),
          (40, g.date[0]?.getD 0), (41, g.date[1]?.getD 0), (42, g.date[2]?.getD 0), (43, g.date[3]?.getD 0),
          (44, g.date[4]?.getD 0), (45, g.date[5]?.getD 0), (46, g.date[6]?.getD 0)],
        r.vals[e.1 - 1]? = some (.int e.2)) ∧
      r.vals[52 - 1]? = some (.raw ((g.clientZone ++ List.replicate 128 0).take 128)) := by
  obtain ⟨r, r1, r2, -⟩ := C68_back hz hj hb hw hlen hty hk rest
  obtain ⟨n, data, cb, e1, e2, e3, rfl⟩ := build_ok hb
  refine ⟨r, r1, ?_, ?_, ?_⟩
  · have key : ∀ (f : Nat) (off w : Nat) (t : Text), (f, off, Field.text w) ∈ fields →
        (header g s p.type n data.length cb.length)[f - 1]? = some (.text t) →
        ∃ u, r.vals[f - 1]? = some (.text u) ∧ Trim (t.take w) u := by
      intro f off w t hf hv
      obtain ⟨v, u, h1, h2, h3⟩ := r2 _ hf
      dsimp only at h1 h2 h3
      rw [hv] at h1
      cases h1
      cases u <;> first | exact h3.elim | exact ⟨_, h2, h3⟩
    intro e he
    simp only [List.mem_cons, List.not_mem_nil, or_false] at he
    rcases he with rfl | rfl | rfl | rfl
    · exact key 6 20 30 _ (by decide) rfl
    · exact key 7 50 30 _ (by decide) rfl
    · exact key 26 164 16 _ (by decide) rfl
    · exact key 29 212 16 _ (by decide) rfl
  · have key : ∀ (f : Nat) (off w : Nat) (sg : Bool) (i : Int), (f, off, Field.int w sg) ∈ fields →
        (header g s p.type n data.length cb.length)[f - 1]? = some (.int i) → r.vals[f - 1]? = some (.int i) := by
      intro f off w sg i hf hv
      obtain ⟨v, u, h1, h2, h3⟩ := r2 _ hf
      dsimp only at h1 h2 h3
      rw [hv] at h1
      cases h1
      cases u with
      | int j =>
        change j = i at h3
        rw [← h3]
        exact h2
      | _ => exact h3.elim
    intro e he
    simp only [List.mem_cons, List.not_mem_nil, or_false] at he
    rcases he with rfl | rfl | rfl | rfl | rfl | rfl | rfl | rfl | rfl | rfl | rfl | rfl
    · exact key 5 18 2 true _ (by decide) rfl
    · exact key 11 86 2 true _ (by decide) rfl
    · exact key 12 88 2 true _ (by decide) rfl
    · exact key 3 14 2 false _ (by decide) rfl
    · exact key 8 80 2 true _ (by decide) rfl
    · exact key 40 306 2 true _ (by decide) rfl
    · exact key 41 308 2 true _ (by decide) rfl
    · exact key 42 310 2 true _ (by decide) rfl
    · exact key 43 312 2 true _ (by decide) rfl
    · exact key 44 314 2 true _ (by decide) rfl
    · exact key 45 316 2 true _ (by decide) rfl
    · exact key 46 318 2 true _ (by decide) rfl
  · obtain ⟨v, u, h1, h2, h3⟩ := r2 (52, 338, .bytes 128) (by decide)
    change some (Val.raw g.clientZone) = some v at h1
    cases h1
    cases u with
    | raw y =>
      change y = _ at h3
      rw [← h3]
      exact h2
    | _ => exact h3.elim

/-! ### C69 -/

/-- C69. Integers come back as they are, floating-point numbers with an error of one step of the 32-bit scale and of single
precision. -/
theorem C69_partial {unzip : Bytes → Py Bytes} {zip : Bytes → Bytes} (hz : ∀ b, unzip (zip b) = .ok b)
    {junk : Int} (hj : -2147483648 ≤ junk ∧ junk ≤ 2147483647) {g : Args} {s : Split} {k : Text} {p : Part} {o : Obj} {b : Bytes}
    (hb : build id junk zip g s k p = .ok o) (hw : writeObj o = .ok b) 
    (hlen : p.points.length = (s.x.map Axis.size).getD 1 * (s.y.map Axis.size).getD 1 *
      max (if p.type = 21 then (s.t.map Axis.size).getD 0 else 0) 1)
    (hty : p.type ∈ [1, 2, 3, 4, 5, 10, 12, 18, 20, 21]) (hk : Keeps p.dtype p.type g.special (· ∈ p.points)) (rest : Bytes)
    {R M : Rat} (hR : Spread (· ∈ p.points) R M) :
    ∃ r, readObj unzip (b ++ rest) = .ok (r, rest) ∧
      (p.dtype ≠ .float → r.points.vals = p.points) ∧
      List.Forall₂ (Close (R / 4294967293 + R / 2 ^ 24 + M / 2 ^ 24)) p.points r.points.vals := by
  obtain ⟨r, n, d, c, r1, r2, r3, -, r5⟩ := part_read hz hj hb hw hlen hty hk rest
  have h := r5 R M hR.1 hR.2
  refine ⟨r, r1, ?_, ?_⟩
  · intro hf
    unfold bound at h
    rw [if_neg hf] at h
    exact close_zero h
  · have hMR : ∀ a, some a ∈ p.points → 0 ≤ R ∧ 0 ≤ M := fun a ha => ⟨by have := hR.1 a a ha ha; linarith, (abs_nonneg a).trans (hR.2 a ha)⟩
    have key : ∀ {l m : List (Option Rat)}, (∀ d ∈ l, d ∈ p.points) → List.Forall₂ (Close (bound p.dtype R M)) l m →
        List.Forall₂ (Close (R / 4294967293 + R / 2 ^ 24 + M / 2 ^ 24)) l m := by
      intro l m hl h
      induction h with
      | nil => exact .nil
      | @cons a b l m h1 _ ih =>
        refine .cons ?_ (ih fun d hd => hl d (List.mem_cons_of_mem _ hd))
        cases a <;> cases b
        · trivial
        · exact h1.elim
        · exact h1.elim
        next x y =>
          refine le_trans (show |y - x| ≤ bound p.dtype R M from h1) ?_
          unfold bound
          split
          · exact le_refl _
          · obtain ⟨h1, h2⟩ := hMR _ (hl _ (List.mem_cons_self ..))
            positivity
    exact key (fun d hd => hd) h

/-! ### C70 -/

section
variable {unzip : Bytes → Py Bytes} {zip : Bytes → Bytes} {junk : Int} {g : Args} {s : Sig} {f : Bytes}

/-- C70. A profile. -/
theorem C70_profile (hz : ∀ b, unzip (zip b) = .ok b) (hj : -2147483648 ≤ junk ∧ junk ≤ 2147483647)
    (hw : writeFile id junk zip g s = .ok f) {x : Axis} (hax : s.axes = [x])
    (hns : x.navigate = true ∨ String.ofList x.name ∉ spectralNames) (hx : AxisFits 16 x)
    (hk : Keeps s.dtype 1 g.special (HasVal [x.size] (s.data 0))) {R M : Rat} (hR : Spread (HasVal [x.size] (s.data 0)) R M) :
    ∃ res, loadFile unzip f = .ok res ∧ res.axes = [{ x with navigate := false }] ∧ res.shape = [x.size] ∧
      Values (bound s.dtype R M) [x.size] (s.data 0) res.flat := by
  have hshape : s.shape = [x.size] := by unfold Sig.shape; rw [hax]; rfl
  have hs : split s = .ok (splitProfile s) := by
    unfold split navAxes sigAxes
    rw [hax]
    cases hn : x.navigate with
    | true => simp [hn]
    | false =>
      have : isSpectrum s = false := by
        rw [← Bool.not_eq_true, isSpectrum_iff, hax]
        rintro ⟨a, h1, h2⟩
        rw [List.mem_singleton.1 h1] at h2
        rw [hn] at hns
        rcases hns with h | h
        · cases h
        · exact h h2
      simp [hn, this]
  have hX : (splitProfile s).x = some x := by unfold splitProfile; rw [hax]; rfl
  obtain ⟨r, r1, r2⟩ := one_read hz hj hw hs (p := ⟨1, s.dtype, whole s 0⟩) ⟨by
      rw [whole_length, hshape]
      unfold count extent
      rw [hX]
      simp [splitProfile, size], by dsimp only; decide, by rw [mem_whole, hshape]; exact hk⟩ rfl rfl rfl
  have hl := close_length r2
  rw [whole_length, hshape] at hl
  unfold loadFile
  rw [r1]
  unfold assemble
  dsimp only
  rw [back_type r2]
  dsimp only
  rw [if_neg (by decide), if_neg (by decide), if_pos rfl, if_neg (by simp)]
  refine ⟨_, rfl, ?_, ?_, ?_⟩
  · rw [back_xAx r2 hX hx]
  · dsimp only
    rw [hl]
    simp [size]
  · have := r2.2 R M (by rw [mem_whole, hshape]; exact hR)
    unfold whole at this
    rw [hshape] at this
    exact values_of this

/-- C70. A spectrum with more than one channel. -/
theorem C70_spectrum_partial (hz : ∀ b, unzip (zip b) = .ok b) (hj : -2147483648 ≤ junk ∧ junk ≤ 2147483647)
    (hw : writeFile id junk zip g s = .ok f) {x : Axis} (hax : s.axes = [x])
    (hns : x.navigate = false ∧ String.ofList x.name ∈ spectralNames) (hx : AxisFits 16 x) (h1 : x.size ≠ 1)
    (hk : Keeps s.dtype 20 g.special (HasVal [x.size] (s.data 0))) {R M : Rat} (hR : Spread (HasVal [x.size] (s.data 0)) R M) :
    ∃ res, loadFile unzip f = .ok res ∧ res.axes = [x] ∧ res.shape = [x.size] ∧
      Values (bound s.dtype R M) [x.size] (s.data 0) res.flat := by
  have hshape : s.shape = [x.size] := by unfold Sig.shape; rw [hax]; rfl
  obtain ⟨hn, hsp⟩ := hns
  have hs : split s = .ok (splitSpectrum s) := by
    have : isSpectrum s = true := (isSpectrum_iff s).2 ⟨x, by rw [hax]; simp, hsp⟩
    unfold split navAxes sigAxes
    rw [hax]
    simp [hn, this]
  have hX : (splitSpectrum s).x = some x := by unfold splitSpectrum sigAxes; rw [hax]; simp [hn]
  have hY : (splitSpectrum s).y = none := by unfold splitSpectrum navAxis; rw [hax]; simp [hn]
  obtain ⟨r, r1, r2⟩ := one_read hz hj hw hs (p := ⟨20, s.dtype, whole s 0⟩) ⟨by
      rw [whole_length, hshape]
      unfold count extent
      rw [hX, hY]
      simp [size], by dsimp only; decide, by rw [mem_whole, hshape]; exact hk⟩ rfl rfl rfl
  have hl := close_length r2
  rw [whole_length, hshape] at hl
  have hp := back_points r2
  have hli := back_lines r2
  rw [hX] at hp
  rw [hY] at hli
  change intOf r.vals 18 = (x.size : Nat) at hp
  change intOf r.vals 19 = (1 : Nat) at hli
  unfold loadFile
  rw [r1]
  unfold assemble reshape lines points
  dsimp only
  rw [back_type r2, hp, hli]
  dsimp only
  rw [if_neg (by decide), if_pos rfl, if_neg (by simp), if_pos (by rw [hl]; simp [size])]
  refine ⟨_, rfl, ?_, ?_, ?_⟩
  · dsimp only
    rw [back_xAx r2 hX hx, List.nil_append]
    congr 1
    rw [← hn]
  · simp [h1]
  · have := r2.2 R M (by rw [mem_whole, hshape]; exact hR)
    unfold whole at this
    rw [hshape] at this
    exact values_of this

/-- C70. A line of spectra, more than one of them, with more than one channel. -/
theorem C70_spectra_partial (hz : ∀ b, unzip (zip b) = .ok b) (hj : -2147483648 ≤ junk ∧ junk ≤ 2147483647)
    (hw : writeFile id junk zip g s = .ok f) {y x : Axis} (hax : s.axes = [y, x]) (hy : y.navigate = true) (hxn : x.navigate = false)
    (hsp : String.ofList x.name ∈ spectralNames ∨ String.ofList y.name ∈ spectralNames)
    (hx : AxisFits 16 x) (hyf : AxisFits 16 y) (h1 : x.size ≠ 1 ∧ y.size ≠ 1)
    (hk : Keeps s.dtype 20 g.special (HasVal [y.size, x.size] (s.data 0)))
    {R M : Rat} (hR : Spread (HasVal [y.size, x.size] (s.data 0)) R M) :
    ∃ res, loadFile unzip f = .ok res ∧ res.axes = [y, x] ∧ res.shape = [y.size, x.size] ∧
      Values (bound s.dtype R M) [y.size, x.size] (s.data 0) res.flat := by
  have hshape : s.shape = [y.size, x.size] := by unfold Sig.shape; rw [hax]; rfl
  have hs : split s = .ok (splitSpectrum s) := by
    have : isSpectrum s = true := by
      rw [isSpectrum_iff, hax]
      rcases hsp with h | h
      · exact ⟨x, by simp, h⟩
      · exact ⟨y, by simp, h⟩
    unfold split navAxes sigAxes
    rw [hax]
    simp [hy, hxn, this]
  have hX : (splitSpectrum s).x = some x := by unfold splitSpectrum sigAxes; rw [hax]; simp [hy, hxn]
  have hY : (splitSpectrum s).y = some y := by unfold splitSpectrum navAxis; rw [hax]; simp [hy]
  obtain ⟨r, r1, r2⟩ := one_read hz hj hw hs (p := ⟨20, s.dtype, whole s 0⟩) ⟨by
      rw [whole_length, hshape]
      unfold count extent
      rw [hX, hY]
      simp [size, Nat.mul_comm], by dsimp only; decide, by rw [mem_whole, hshape]; exact hk⟩ rfl rfl rfl
  have hl := close_length r2
  rw [whole_length, hshape] at hl
  have hp := back_points r2
  have hli := back_lines r2
  rw [hX] at hp
  rw [hY] at hli
  change intOf r.vals 18 = (x.size : Nat) at hp
  change intOf r.vals 19 = (y.size : Nat) at hli
  unfold loadFile
  rw [r1]
  unfold assemble reshape lines points
  dsimp only
  rw [back_type r2, hp, hli]
  dsimp only
  rw [if_neg (by decide), if_pos rfl, if_pos (by have := h1.2; omega), if_pos (by rw [hl]; simp [size])]
  refine ⟨_, rfl, ?_, ?_, ?_⟩
  · dsimp only
    rw [back_xAx r2 hX hx, back_yAx r2 hY hyf, List.singleton_append]
    congr 1
    · rw [← hy]
    · rw [← hxn]
  · simp [h1.1, h1.2]
  · have := r2.2 R M (by rw [mem_whole, hshape]; exact hR)
    unfold whole at this
    rw [hshape] at this
    exact values_of this

/-- C70. A surface or a binary image. -/
theorem C70_surface (hz : ∀ b, unzip (zip b) = .ok b) (hj : -2147483648 ≤ junk ∧ junk ≤ 2147483647)
    (hw : writeFile id junk zip g s = .ok f) {y x : Axis} (hax : s.axes = [y, x]) (hn : y.navigate = x.navigate)
    (hrgb : s.dtype ≠ .rgb8 ∧ s.dtype ≠ .rgb16 ∧ s.dtype ≠ .rgba8 ∧ s.dtype ≠ .rgba16)
    (hx : AxisFits 16 x) (hyf : AxisFits 16 y)
    (hk : Keeps s.dtype 2 g.special (HasVal [y.size, x.size] (s.data 0)))
    {R M : Rat} (hR : Spread (HasVal [y.size, x.size] (s.data 0)) R M) :
    ∃ res, loadFile unzip f = .ok res ∧ res.axes = [{ y with navigate := false }, { x with navigate := false }] ∧
      res.shape = [y.size, x.size] ∧ Values (bound s.dtype R M) [y.size, x.size] (s.data 0) res.flat := by
  have hshape : s.shape = [y.size, x.size] := by unfold Sig.shape; rw [hax]; rfl
  have hr : isRgb s.dtype = false := by
    unfold isRgb
    simp [hrgb]
  obtain ⟨ty, hty, hs⟩ : ∃ ty : Int, (ty = 3 ∧ s.dtype = .bool ∨ ty = 2) ∧ split s = .ok (splitSurface ty s) := by
    by_cases hb : s.dtype = .bool
    · refine ⟨3, .inl ⟨rfl, hb⟩, ?_⟩
      unfold split navAxes sigAxes
      rw [hax]
      cases h : x.navigate <;> (rw [h] at hn; simp [h, hn, hb])
    · refine ⟨2, .inr rfl, ?_⟩
      unfold split navAxes sigAxes
      rw [hax]
      cases h : x.navigate <;> (rw [h] at hn; simp [h, hn, hb, hr])
  have hX : (splitSurface ty s).x = some x := by unfold splitSurface; rw [hax]; rfl
  have hY : (splitSurface ty s).y = some y := by unfold splitSurface; rw [hax]; rfl
  have hk' : Keeps s.dtype ty g.special (HasVal [y.size, x.size] (s.data 0)) := by
    rcases hty with ⟨rfl, hb⟩ | rfl
    · rw [hb] at hk ⊢
      exact ⟨hk.1, hk.2.1, trivial⟩
    · exact hk
  obtain ⟨r, r1, r2⟩ := one_read hz hj hw hs (p := ⟨ty, s.dtype, whole s 0⟩) ⟨by
      rw [whole_length, hshape]
      unfold count extent
      rw [hX, hY, if_neg (by dsimp only; omega)]
      simp [size, Nat.mul_comm], by rcases hty with ⟨rfl, _⟩ | rfl <;> (dsimp only; decide), by rw [mem_whole, hshape]; exact hk'⟩ rfl rfl rfl
  have hl := close_length r2
  rw [whole_length, hshape] at hl
  have hp := back_points r2
  have hli := back_lines r2
  rw [hX] at hp
  rw [hY] at hli
  change intOf r.vals 18 = (x.size : Nat) at hp
  change intOf r.vals 19 = (y.size : Nat) at hli
  unfold loadFile
  rw [r1]
  unfold assemble reshape lines points
  dsimp only
  rw [back_type r2, hp, hli]
  dsimp only
  have t : ty = 3 ∨ ty = 2 := by tauto
  rw [if_neg (by omega), if_neg (by omega), if_neg (by omega), if_neg (by omega), if_pos (by omega), if_neg (by simp),
    if_pos (by rw [hl]; simp [size])]
  refine ⟨_, rfl, ?_, ?_, ?_⟩
  · dsimp only
    rw [back_xAx r2 hX hx, back_yAx r2 hY hyf]
  · simp
  · have := r2.2 R M (by rw [mem_whole, hshape]; exact hR)
    unfold whole at this
    rw [hshape] at this
    exact values_of this

/-- C70. A map of spectra. -/
theorem C70_map (hz : ∀ b, unzip (zip b) = .ok b) (hj : -2147483648 ≤ junk ∧ junk ≤ 2147483647)
    (hw : writeFile id junk zip g s = .ok f) {y x t : Axis} (hax : s.axes = [y, x, t])
    (hn : y.navigate = true ∧ x.navigate = true ∧ t.navigate = false)
    (hx : AxisFits 16 x) (hyf : AxisFits 16 y) (htf : AxisFits 13 t) (h0 : t.scale ≠ 0)
    (hk : Keeps s.dtype 21 g.special (HasVal [y.size, x.size, t.size] (s.data 0)))
    {R M : Rat} (hR : Spread (HasVal [y.size, x.size, t.size] (s.data 0)) R M) :
    ∃ res, loadFile unzip f = .ok res ∧ res.axes = [y, x, t] ∧
      res.shape = [y.size, x.size, t.size] ∧ Values (bound s.dtype R M) [y.size, x.size, t.size] (s.data 0) res.flat := by
  have hshape : s.shape = [y.size, x.size, t.size] := by unfold Sig.shape; rw [hax]; rfl
  obtain ⟨n1, n2, n3⟩ := hn
  have hs : split s = .ok (splitMap s) := by
    unfold split navAxes sigAxes
    rw [hax]
    simp [n1, n2, n3]
  have hX : (splitMap s).x = some x := by unfold splitMap navAxes; rw [hax]; simp [n1, n2, n3]
  have hY : (splitMap s).y = some y := by unfold splitMap navAxes; rw [hax]; simp [n1, n2, n3]
  have hT : (splitMap s).t = some t := by unfold splitMap sigAxes; rw [hax]; simp [n1, n2, n3]
  have ht1 : 0 < t.size := by
    obtain ⟨-, ⟨d, I, hI, -⟩, -⟩ := hk
    cases hI with
    | cons _ hI => cases hI with
      | cons _ hI => cases hI with
        | cons h _ => omega
  obtain ⟨r, r1, r2⟩ := one_read hz hj hw hs (p := ⟨21, s.dtype, whole s 0⟩) ⟨by
      rw [whole_length, hshape]
      unfold count extent
      rw [hX, hY, hT, if_pos rfl]
      simp only [size, Option.map_some, Option.getD_some]
      rw [max_eq_left ht1]
      ring, by dsimp only; decide, by rw [mem_whole, hshape]; exact hk⟩ rfl rfl rfl
  have hl := close_length r2
  rw [whole_length, hshape] at hl
  have hp := back_points r2
  have hli := back_lines r2
  have hwv := back_w r2 rfl
  rw [hX] at hp
  rw [hY] at hli
  rw [hT] at hwv
  change intOf r.vals 18 = (x.size : Nat) at hp
  change intOf r.vals 19 = (y.size : Nat) at hli
  change intOf r.vals 14 = (t.size : Nat) at hwv
  unfold loadFile
  rw [r1]
  unfold assemble reshape lines points
  dsimp only
  rw [back_type r2, hp, hli, hwv]
  dsimp only
  rw [if_pos rfl, if_neg (by simp), if_pos (by rw [hl]; simp [size])]
  refine ⟨_, rfl, ?_, ?_, ?_⟩
  · dsimp only
    rw [back_xAx r2 hX hx, back_yAx r2 hY hyf, back_tAx r2 hT htf h0 hwv]
    congr 1
    · rw [← n1]
    · congr 1
      · rw [← n2]
      · rw [← n3]
  · simp
  · have := r2.2 R M (by rw [mem_whole, hshape]; exact hR)
    unfold whole at this
    rw [hshape] at this
    exact values_of this

/-- C70. A series of profiles. -/
theorem C70_profiles (hz : ∀ b, unzip (zip b) = .ok b) (hj : -2147483648 ≤ junk ∧ junk ≤ 2147483647)
    (hw : writeFile id junk zip g s = .ok f) {t x : Axis} (hax : s.axes = [t, x]) (hn : t.navigate = true ∧ x.navigate = false)
    (hns : String.ofList x.name ∉ spectralNames ∧ String.ofList t.name ∉ spectralNames)
    (hx : AxisFits 16 x) (htf : AxisFits 13 t) (h0 : t.scale ≠ 0) (hpos : 0 < t.size)
    (hk : ∀ k < t.size, Keeps s.dtype 1 g.special (HasVal [x.size] fun I => s.data 0 (k :: I)))
    {R M : Rat} (hR : Spread (HasVal [t.size, x.size] (s.data 0)) R M) :
    ∃ res, loadFile unzip f = .ok res ∧ res.axes = [t, x] ∧
      res.shape = [t.size, x.size] ∧ Values (bound s.dtype R M) [t.size, x.size] (s.data 0) res.flat := by
  have hshape : s.shape = [t.size, x.size] := by unfold Sig.shape; rw [hax]; rfl
  obtain ⟨n1, n2⟩ := hn
  obtain ⟨i1, i2⟩ := navIndex_head hax n1
  have hs : split s = .ok (splitProfiles s) := by
    have : isSpectrum s = false := by
      rw [← Bool.not_eq_true, isSpectrum_iff, hax]
      rintro ⟨a, h1, h2⟩
      simp at h1
      rcases h1 with rfl | rfl
      · exact hns.2 h2
      · exact hns.1 h2
    unfold split navAxes sigAxes
    rw [hax]
    simp [n1, n2, this]
  have hX : (splitProfiles s).x = some x := by unfold splitProfiles sigAxes; rw [hax]; simp [n1, n2]
  have hT : (splitProfiles s).t = some t := i2
  have hO : (splitProfiles s).nObjects = t.size := by
    unfold splitProfiles
    rw [i1, along_get hax]
    simp
  obtain ⟨p, r, rs, r1, r2, r3, r4, r5, r6⟩ := series_read hz hj hax hw hs (t := 4) (t' := 1) (ty := s.dtype)
    (by unfold splitProfiles; rw [i1]) hO rfl (by
      intro u hu
      unfold count extent
      rw [hX, if_neg (by omega)]
      simp [splitProfiles, size]) ⟨by decide, by decide⟩ (by decide) (by decide) hpos hk
  have ho := back_nObjects r2
  rw [hO] at ho
  unfold loadFile
  rw [r1]
  unfold assemble
  dsimp only
  rw [back_type r2, r3, if_neg (by decide), if_neg (by decide), if_neg (by decide), if_pos rfl, if_neg (by
    intro h
    obtain ⟨q, h1, h2⟩ := List.any_eq_true.1 h
    have e1 := r5 q (List.mem_cons_of_mem _ h1)
    have e2 := r5 r (List.mem_cons_self ..)
    rw [e1, e2] at h2
    simp at h2)]
  refine ⟨_, rfl, ?_, ?_, ?_⟩
  · dsimp only
    rw [back_xAx r2 hX hx, back_tAx r2 hT htf h0 ho]
    congr 1
    · rw [← n1]
    · rw [← n2]
  · dsimp only
    rw [r5 r (List.mem_cons_self ..), ← r4]
    simp [size]
  · have := r6 R M (by rw [hshape]; exact hR)
    rw [hshape] at this
    exact this

/-- C70. A series of surfaces. -/
theorem C70_surfaces (hz : ∀ b, unzip (zip b) = .ok b) (hj : -2147483648 ≤ junk ∧ junk ≤ 2147483647)
    (hw : writeFile id junk zip g s = .ok f) {t y x : Axis} (hax : s.axes = [t, y, x])
    (hn : t.navigate = true ∧ y.navigate = false ∧ x.navigate = false)
    (hrgb : s.dtype ≠ .rgb8 ∧ s.dtype ≠ .rgb16 ∧ s.dtype ≠ .rgba8 ∧ s.dtype ≠ .rgba16)
    (hx : AxisFits 16 x) (hyf : AxisFits 16 y) (htf : AxisFits 13 t) (h0 : t.scale ≠ 0) (hpos : 0 < t.size)
    (hk : ∀ k < t.size, Keeps s.dtype 2 g.special (HasVal [y.size, x.size] fun I => s.data 0 (k :: I)))
    {R M : Rat} (hR : Spread (HasVal [t.size, y.size, x.size] (s.data 0)) R M) :
    ∃ res, loadFile unzip f = .ok res ∧ res.axes = [t, y, x] ∧
      res.shape = [t.size, y.size, x.size] ∧ Values (bound s.dtype R M) [t.size, y.size, x.size] (s.data 0) res.flat := by
  have hshape : s.shape = [t.size, y.size, x.size] := by unfold Sig.shape; rw [hax]; rfl
  obtain ⟨n1, n2, n3⟩ := hn
  obtain ⟨i1, i2⟩ := navIndex_head hax n1
  have hr : isRgb s.dtype = false := by
    unfold isRgb
    simp [hrgb]
  obtain ⟨sp, hs, hparts, hX, hY, hT, hO, hC⟩ : ∃ sp, split s = .ok sp ∧
      sp.parts = headType 5 ((along s 0 0).map fun p => ⟨2, s.dtype, p⟩) ∧ sp.x = some x ∧ sp.y = some y ∧ sp.t = some t ∧
      sp.nObjects = t.size ∧ sp.nChannels = 1 := by
    have hne : along s 0 0 ≠ [] := by
      rw [along_get hax]
      simp
      omega
    refine ⟨⟨headType 5 ((along s 0 0).map fun p => ⟨2, s.dtype, p⟩), some x, some y, some t, t.size, 1⟩, ?_, rfl, rfl, rfl, rfl, rfl, rfl⟩
    have h1 : (navAxes s).length = 1 := by unfold navAxes; rw [hax]; simp [n1, n2, n3]
    have h2 : sigAxes s = [y, x] := by unfold sigAxes; rw [hax]; simp [n1, n2, n3]
    unfold split
    rw [h1, h2]
    simp only [List.length_cons, List.length_nil, hr, Bool.false_eq_true, if_false]
    unfold splitSurfaces
    dsimp only
    rw [i1, if_neg hne, h2, i2, along_get hax]
    simp
  obtain ⟨p, r, rs, r1, r2, r3, r4, r5, r6⟩ := series_read hz hj hax hw hs (t := 5) (t' := 2) (ty := s.dtype)
    hparts hO hC (by
      intro u hu
      unfold count extent
      rw [hX, hY, if_neg (by omega)]
      simp [size, Nat.mul_comm]) ⟨by decide, by decide⟩ (by decide) (by decide) hpos hk
  have ho := back_nObjects r2
  rw [hO] at ho
  have hp := back_points r2
  have hli := back_lines r2
  rw [hX] at hp
  rw [hY] at hli
  change intOf r.vals 18 = (x.size : Nat) at hp
  change intOf r.vals 19 = (y.size : Nat) at hli
  unfold loadFile
  rw [r1]
  unfold assemble stack lines points
  dsimp only
  rw [back_type r2, r3, hp, hli, Int.toNat_natCast, Int.toNat_natCast, if_neg (by decide), if_neg (by decide), if_neg (by decide),
    if_neg (by decide), if_neg (by decide), if_pos (by decide), reshapeAll_ok (by simpa [size] using r5)]
  refine ⟨_, rfl, ?_, ?_, ?_⟩
  · dsimp only
    rw [back_xAx r2 hX hx, back_yAx r2 hY hyf, back_tAx r2 hT htf h0 ho]
    congr 1
    · rw [← n1]
    · congr 1
      · rw [← n2]
      · rw [← n3]
  · dsimp only
    rw [← r4]
    rfl
  · have := r6 R M (by rw [hshape]; exact hR)
    rw [hshape] at this
    exact this

/-- C70. An RGB image: the channels are stacked along a new first axis; the values are exact. -/
theorem C70_image (hz : ∀ b, unzip (zip b) = .ok b) (hj : -2147483648 ≤ junk ∧ junk ≤ 2147483647)
    (hw : writeFile id junk zip g s = .ok f) {y x : Axis} (hax : s.axes = [y, x]) (hn : y.navigate = x.navigate)
    (hrgb : s.dtype = .rgb8 ∨ s.dtype = .rgb16 ∨ s.dtype = .rgba8 ∨ s.dtype = .rgba16)
    (hx : AxisFits 16 x) (hyf : AxisFits 16 y) (hpos : 0 < y.size ∧ 0 < x.size)
    (hd : ∀ ch < 3, ∀ d, HasVal [y.size, x.size] (s.data ch) d → ∃ i : Int, d = some (i : Rat) ∧ 0 ≤ i ∧ i ≤ 65535) :
    ∃ res, loadFile unzip f = .ok res ∧
      res.axes = [⟨[], 3, 1, 0, [], true⟩, { y with navigate := false }, { x with navigate := false }] ∧
      res.shape = [3, y.size, x.size] ∧
      Values 0 [3, y.size, x.size] (fun I => match I with
        | ch :: J => s.data ch J
        | [] => none) res.flat := by
  have hshape : s.shape = [y.size, x.size] := by unfold Sig.shape; rw [hax]; rfl
  have hr : isRgb s.dtype = true := by
    unfold isRgb
    rcases hrgb with h | h | h | h <;> rw [h] <;> rfl
  have hb : s.dtype ≠ .bool := by rcases hrgb with h | h | h | h <;> rw [h] <;> decide
  have hs : split s = .ok (splitRgb s) := by
    unfold split navAxes sigAxes
    rw [hax]
    cases h : x.navigate <;> (rw [h] at hn; simp [h, hn, hb, hr])
  have hX : (splitRgb s).x = some x := by unfold splitRgb; rw [hax]; rfl
  have hY : (splitRgb s).y = some y := by unfold splitRgb; rw [hax]; rfl
  have hfit : ∀ ch < 3, ∀ t : Int, t = 10 ∨ t = 12 → PartFits g (splitRgb s) ⟨t, .i32, whole s ch⟩ := by
    intro ch hch t ht
    refine ⟨?_, ?_, ?_⟩
    · rw [whole_length, hshape]
      unfold count extent
      rw [hX, hY, if_neg (by dsimp only; omega)]
      simp [size, Nat.mul_comm]
    · rcases ht with rfl | rfl <;> (dsimp only; decide)
    · rw [mem_whole, hshape]
      exact keeps_image (.inl rfl) (N := 65535) ⟨by simp, by simp⟩ (hd ch hch) ⟨_, [0, 0], .cons hpos.1 (.cons hpos.2 .nil), rfl⟩
  obtain ⟨rs, r1, r2, -⟩ := file_read hz hj hw hs (by
    intro p hp
    simp [splitRgb] at hp
    rcases hp with rfl | rfl | rfl
    · exact hfit 0 (by omega) _ (.inr rfl)
    · exact hfit 1 (by omega) _ (.inl rfl)
    · exact hfit 2 (by omega) _ (.inl rfl)) (by simp [splitRgb]) rfl
  rcases r2 with _ | ⟨h0, r2⟩
  rename_i r rs
  have hli := back_lines h0
  have hp := back_points h0
  rw [hX] at hp
  rw [hY] at hli
  change intOf r.vals 18 = (x.size : Nat) at hp
  change intOf r.vals 19 = (y.size : Nat) at hli
  have hcol := back_colour h0 rfl
  have hex := back_xAx h0 hX hx
  have hey := back_yAx h0 hY hyf
  have hty : intOf r.vals 5 = 12 := back_type h0
  rcases r2 with _ | ⟨h1, r2⟩
  rcases r2 with _ | ⟨h2, r2⟩
  cases r2
  have e0 := exact_read h0 (by dsimp only; decide)
  have e1 := exact_read h1 (by dsimp only; decide)
  have e2 := exact_read h2 (by dsimp only; decide)
  dsimp only at e0 e1 e2
  unfold loadFile
  rw [r1]
  unfold assemble stack lines points
  dsimp only
  rw [hty, hp, hli, Int.toNat_natCast, Int.toNat_natCast, if_neg (by decide), if_neg (by decide), if_neg (by decide),
    if_neg (by decide), if_neg (by decide), if_neg (by decide), if_pos (by decide), reshapeAll_ok (by
      intro q hq
      simp at hq
      rcases hq with rfl | rfl | rfl
      · rw [e0, whole_length, hshape]
      · rw [e1, whole_length, hshape]
      · rw [e2, whole_length, hshape])]
  refine ⟨_, rfl, ?_, ?_, ?_⟩
  · dsimp only
    rw [hcol, hex, hey]
    rfl
  · rfl
  · apply values_of
    dsimp only
    have : ravel [3, y.size, x.size] (fun I => match I with
        | ch :: J => s.data ch J
        | [] => none) = whole s 0 ++ (whole s 1 ++ (whole s 2 ++ [])) := by
      unfold whole
      rw [hshape]
      rfl
    rw [this, List.flatMap_cons, List.flatMap_cons, List.flatMap_cons, List.flatMap_nil, e0, e1, e2]
    refine List.forall₂_same.2 fun d _ => ?_
    cases d <;> simp [Close]

/-- C70. A series of RGB images with values up to 32767: the channel is the last index; the values are exact. -/
theorem C70_images_partial (hz : ∀ b, unzip (zip b) = .ok b) (hj : -2147483648 ≤ junk ∧ junk ≤ 2147483647)
    (hw : writeFile id junk zip g s = .ok f) {t y x : Axis} (hax : s.axes = [t, y, x])
    (hn : t.navigate = true ∧ y.navigate = false ∧ x.navigate = false)
    (hrgb : s.dtype = .rgb8 ∨ s.dtype = .rgb16 ∨ s.dtype = .rgba8 ∨ s.dtype = .rgba16)
    (hx : AxisFits 16 x) (hyf : AxisFits 16 y) (htf : AxisFits 13 t) (h0 : t.scale ≠ 0)
    (hpos : 0 < t.size ∧ 0 < y.size ∧ 0 < x.size)
    (hd : ∀ ch < 3, ∀ d, HasVal [t.size, y.size, x.size] (s.data ch) d → ∃ i : Int, d = some (i : Rat) ∧ 0 ≤ i ∧ i ≤ 32767) :
    ∃ res, loadFile unzip f = .ok res ∧
      res.axes = [{ t with navigate := false }, y, x, { t with size := 3 }] ∧
      res.shape = [t.size, y.size, x.size, 3] ∧
      Values 0 [t.size, y.size, x.size, 3] (fun I => match I with
        | [k, i, j, ch] => s.data ch [k, i, j]
        | _ => none) res.flat := by
  have hshape : s.shape = [t.size, y.size, x.size] := by unfold Sig.shape; rw [hax]; rfl
  obtain ⟨n1, n2, n3⟩ := hn
  obtain ⟨i1, i2⟩ := navIndex_head hax n1
  have hr : isRgb s.dtype = true := by
    unfold isRgb
    rcases hrgb with h | h | h | h <;> rw [h] <;> rfl
  have hpart : ∀ k < t.size, ∀ ch < 3, (imagePart s k ch).points = ravel [y.size, x.size] fun I => s.data ch (k :: I) := by
    intro k hk ch hch
    unfold imagePart
    dsimp only
    rw [along_get hax, List.getElem?_map, List.getElem?_range hk]
    change List.map toInt16 (ravel [y.size, x.size] fun I => s.data ch (k :: I)) = _
    conv_rhs => rw [← List.map_id (ravel [y.size, x.size] fun I => s.data ch (k :: I))]
    apply List.map_congr_left
    intro d hdm
    obtain ⟨I, hI, e⟩ := mem_ravel.1 hdm
    exact toInt16_id (hd ch hch d ⟨k :: I, .cons hk hI, e⟩)
  obtain ⟨sp, hs, hparts, hX, hY, hT, hO, hC⟩ : ∃ sp, split s = .ok sp ∧
      sp.parts = ((List.range t.size).flatMap fun k => (List.range 3).map fun ch => imagePart s k ch) ∧
      sp.x = some x ∧ sp.y = some y ∧ sp.t = some t ∧ sp.nObjects = t.size ∧ sp.nChannels = 3 := by
    refine ⟨⟨((List.range t.size).flatMap fun k => (List.range 3).map fun ch => imagePart s k ch), some x, some y, some t, t.size, 3⟩,
      ?_, rfl, rfl, rfl, rfl, rfl, rfl⟩
    have h1 : (navAxes s).length = 1 := by unfold navAxes; rw [hax]; simp [n1, n2, n3]
    have h2 : sigAxes s = [y, x] := by unfold sigAxes; rw [hax]; simp [n1, n2, n3]
    unfold split
    rw [h1, h2]
    simp only [List.length_cons, List.length_nil, hr, if_true]
    unfold splitRgbs
    dsimp only
    rw [i1, i2, h2, imageParts]
    simp only [Option.map_some, Option.getD_some]
    rw [if_neg (by have := hpos.1; omega)]
    rfl
  have hlenp : sp.parts.length = t.size * 3 := by
    rw [hparts, List.length_flatMap]
    simp
  have hmemp : ∀ p ∈ sp.parts, ∃ k, k < t.size ∧ ∃ ch, ch < 3 ∧ p = imagePart s k ch := by
    intro p hp
    rw [hparts] at hp
    obtain ⟨k, hk, hp⟩ := List.mem_flatMap.1 hp
    obtain ⟨ch, hch, rfl⟩ := List.mem_map.1 hp
    exact ⟨k, List.mem_range.1 hk, ch, List.mem_range.1 hch, rfl⟩
  have htype : ∀ k ch, (imagePart s k ch).type = 18 ∨ (imagePart s k ch).type = 12 ∨ (imagePart s k ch).type = 10 := by
    intro k ch
    unfold imagePart
    dsimp only
    split
    · exact .inl rfl
    · split
      · exact .inr (.inl rfl)
      · exact .inr (.inr rfl)
  obtain ⟨rs, r1, r2, -⟩ := file_read hz hj hw hs (by
    intro p hp
    obtain ⟨k, hk, ch, hch, rfl⟩ := hmemp p hp
    have ht := htype k ch
    refine ⟨?_, ?_, ?_⟩
    · rw [hpart k hk ch hch, length_ravel]
      unfold count extent
      rw [hX, hY, if_neg (by omega)]
      simp [size, Nat.mul_comm]
    · rcases ht with h | h | h <;> rw [h] <;> decide
    · refine keeps_image (.inr rfl) (N := 32767) ⟨by simp, by simp⟩ ?_ ?_
      · intro d hdm
        rw [hpart k hk ch hch] at hdm
        obtain ⟨I, hI, e⟩ := mem_ravel.1 hdm
        exact hd ch hch d ⟨k :: I, .cons hk hI, e⟩
      · refine ⟨s.data ch (k :: [0, 0]), ?_⟩
        rw [hpart k hk ch hch]
        exact mem_ravel.2 ⟨[0, 0], .cons hpos.2.1 (.cons hpos.2.2 .nil), rfl⟩)
    (by intro h; rw [h] at hlenp; simp at hlenp; omega) (by rw [hlenp, hO, hC, max_eq_left (b := 1) (by have := hpos.1; omega : 1 ≤ t.size), max_eq_left (by decide), Nat.mul_comm])
  have hget : ∀ k < t.size, ∀ ch < 3, ∃ r, rs[k * 3 + ch]? = some r ∧ PartBack g sp (imagePart s k ch) r ∧
      r.points.vals = ravel [y.size, x.size] fun I => s.data ch (k :: I) := by
    intro k hk ch hch
    have := imageParts_get s hk hch
    rw [← hparts] at this
    obtain ⟨r, q1, q2⟩ := forall₂_get r2 this
    refine ⟨r, q1, q2, ?_⟩
    rw [exact_read q2 (by unfold imagePart; dsimp only; decide), hpart k hk ch hch]
  have hlens := lengths (n := size [y.size, x.size]) r2 (by
    intro p hp
    obtain ⟨k, hk, ch, hch, rfl⟩ := hmemp p hp
    rw [hpart k hk ch hch, length_ravel])
  have hlr := r2.length_eq
  rw [hlenp] at hlr
  obtain ⟨r, q1, q2, q3⟩ := hget 0 hpos.1 0 (by omega)
  cases rs with
  | nil => simp at q1
  | cons r' rs =>
  rw [Nat.zero_mul, Nat.zero_add, List.getElem?_cons_zero] at q1
  cases q1
  have ho := back_nObjects q2
  have hc := back_nChannels q2
  have hp := back_points q2
  have hli := back_lines q2
  rw [hX] at hp
  rw [hY] at hli
  rw [hO] at ho
  rw [hC] at hc
  change intOf r.vals 18 = (x.size : Nat) at hp
  change intOf r.vals 19 = (y.size : Nat) at hli
  have hty : intOf r.vals 5 = 18 := back_type q2
  have htax8 : tAx r.vals 8 true = { t with size := 3 } := by
    have h3 := back_tAx q2 hT htf h0 ho true
    unfold tAx at h3 ⊢
    rw [hc]
    injection h3 with e1 e2 e3 e4 e5 e6
    rw [e1, e3, e4, e5, n1]
    rfl
  unfold loadFile
  rw [r1]
  unfold assemble
  dsimp only
  rw [hty]
  rw [if_neg (by decide), if_neg (by decide), if_neg (by decide),
    if_neg (by decide), if_neg (by decide), if_neg (by decide), if_neg (by decide), if_pos rfl]
  unfold rgbSeries lines points
  dsimp only
  rw [ho, hc, hp, hli, Int.toNat_natCast, Int.toNat_natCast, Int.toNat_natCast, Int.toNat_natCast, if_neg (by omega),
    reshapeAll_ok (fun q hq => hlens q (List.mem_of_mem_take hq))]
  refine ⟨_, rfl, ?_, rfl, ?_⟩
  · dsimp only
    rw [back_xAx q2 hX hx, back_yAx q2 hY hyf, back_tAx q2 hT htf h0 ho, htax8]
    congr 2
    · rw [← n2]
    · rw [← n3]
  · apply values_of
    dsimp only
    have key : (ravel [t.size, y.size, x.size, 3] fun I => match I with
        | [k, i, j, ch] => ((Option.map (fun r => r.points.vals) (r :: rs)[k * 3 + ch]?).getD [])[i * x.size + j]?.join
        | _ => none) = ravel [t.size, y.size, x.size, 3] fun I => match I with
        | [k, i, j, ch] => s.data ch [k, i, j]
        | _ => none := by
      apply ravel_congr
      intro I hI
      match I, hI with
      | [k, i, j, ch], .cons hk (.cons hi (.cons hjj (.cons hch .nil))) =>
        dsimp only
        obtain ⟨r, q1, q2, q3⟩ := hget k hk ch hch
        rw [q1, Option.map_some, Option.getD_some, q3]
        have e := ravel_getElem (fun I => s.data ch (k :: I)) (show InBounds [y.size, x.size] [i, j] from .cons hi (.cons hjj .nil))
        simp only [flatIndex, size, Nat.mul_one, Nat.add_zero] at e
        rw [e]
        rfl
    have same : ∀ l : List (Option Rat), List.Forall₂ (Close 0) l l := by
      intro l
      refine List.forall₂_same.2 fun d _ => ?_
      cases d <;> simp [Close]
    have := same (ravel [t.size, y.size, x.size, 3] fun I => match I with
        | [k, i, j, ch] => s.data ch [k, i, j]
        | _ => none)
    conv at this => rhs; rw [← key]
    exact this

end

/-! ### Concrete signals -/

def args : Args := ⟨false, false, [], "obj".toList, "me".toList, 0, [], [], "Z".toList, "nm".toList, [1, 2, 3, 4, 5, 2026, 0]⟩
def axis (n : String) (k : Nat) (nav : Bool) : Axis := ⟨n.toList, k, 1 / 2, 3, "um".toList, nav⟩
def signal (axes : List Axis) (ty : DType) (l : Nat → List (Option Rat)) : Sig :=
  ⟨axes, ty, fun ch I => ((l ch)[flatIndex (axes.map Axis.size) I]?).join⟩

/-- Write, and read again. -/
def trip (rnd : Rat → Rat) (junk : Int) (g : Args) (s : Sig) : Option Res := match writeFile rnd junk id g s with
  | .ok f => (loadFile .ok f).toOption
  | .error _ => none

theorem axisFits (n : String) (hn : n ∈ ["X", "Y", "T", "E", "Energy"]) (k : Nat) (nav : Bool) :
    AxisFits 13 (axis n k nav) ∧ AxisFits 16 (axis n k nav) := by
  have h : ∀ n ∈ ["X", "Y", "T", "E", "Energy"], n.toList.length ≤ 13 ∧ (∀ c ∈ n.toList.head?, ¬ blank c) ∧
      ∀ c ∈ n.toList.getLast?, ¬ blank c := by
    intro n hn
    simp only [List.mem_cons, List.not_mem_nil, or_false] at hn
    rcases hn with rfl | rfl | rfl | rfl | rfl <;> simp [blank]
  obtain ⟨h1, h2, h3⟩ := h n hn
  have h4 : Plain 13 "um".toList ∧ Plain 16 "um".toList := by unfold Plain; simp [blank]
  have h5 : Single (1 / 2) := ⟨1056964608, by decide +kernel, by decide +kernel⟩
  have h6 : Single 3 := ⟨1077936128, by decide +kernel, by decide +kernel⟩
  exact ⟨⟨⟨h1, h2, h3⟩, h4.1, h5, h6⟩, ⟨⟨h1.trans (by decide), h2, h3⟩, h4.2, h5, h6⟩⟩

theorem keepsOf {ty : DType} {t : Int} {sp : Bool} {shape : List Nat} {data : List Nat → Option Rat} {l : List (Option Rat)}
    (h : ravel shape data = l) (hk : Keeps ty t sp (· ∈ l)) : Keeps ty t sp (HasVal shape data) := by
  have : HasVal shape data = (· ∈ l) := by
    funext d
    unfold HasVal
    rw [← h, mem_ravel]
  rw [this]
  exact hk

theorem keepsInt {t : Int} {sp : Bool} {l : List Int} (hl : l ≠ []) (h : ∀ i ∈ l, -32768 ≤ i ∧ i ≤ 32767) :
    Keeps .i16 t sp (· ∈ l.map fun (i : Int) => some (i : Rat)) := by
  refine ⟨fun d hd => ?_, ?_, .inr fun a ha => ?_⟩
  · obtain ⟨i, hi, rfl⟩ := List.mem_map.1 hd
    exact ⟨i, rfl, h i hi⟩
  · cases l with
    | nil => exact absurd rfl hl
    | cons i l => exact ⟨some (i : Rat), by simp⟩
  · obtain ⟨i, hi, e⟩ := List.mem_map.1 ha
    injection e with e
    obtain ⟨h1, h2⟩ := h i hi
    rw [← e, abs_le]
    have h3 : -(2 ^ 24 : Int) ≤ i := by omega
    have h4 : i ≤ (2 ^ 24 : Int) := by omega
    exact ⟨by exact_mod_cast h3, by exact_mod_cast h4⟩

theorem keepsFloat {t : Int} (ht : t ∉ [2, 5, 3, 10, 12, 18]) : Keeps .float t true (· ∈ [some 0, none, some (1 / 4), some 1]) := by
  refine ⟨fun d _ => trivial, ⟨none, by simp⟩, ?_, .inl rfl, ?_, ⟨0, 1, by simp, by simp, by norm_num⟩, ?_⟩
  · intro h
    apply ht
    simp at h ⊢
    tauto
  · intro a ha
    simp at ha
    rcases ha with rfl | rfl | rfl
    · exact .inl rfl
    · right
      rw [abs_of_pos (by norm_num)]
      norm_num
    · right
      norm_num
  · intro h
    exfalso
    apply ht
    simp at h ⊢
    tauto

theorem keepsSurface : Keeps .float 2 true (· ∈ [some 0, none, some (1 / 4), some 1]) := by
  refine ⟨fun d _ => trivial, ⟨none, by simp⟩, by decide, .inl rfl, ?_, ⟨0, 1, by simp, by simp, by norm_num⟩, ?_⟩
  · intro a ha
    simp at ha
    rcases ha with rfl | rfl | rfl
    · exact .inl rfl
    · right
      rw [abs_of_pos (by norm_num)]
      norm_num
    · right
      norm_num
  · intro _ a b ha hb
    simp at ha hb
    rcases ha with rfl | rfl | rfl <;> rcases hb with rfl | rfl | rfl <;> norm_num

def floats : List (Option Rat) := [some 0, none, some (1 / 4), some 1]
def special : Args := { args with special := true, compressed := true }

-- A profile, a spectrum, spectra and a surface of floating-point numbers, one of them missing.
example : (writeFile id 0 id special (signal [axis "X" 4 false] .float fun _ => floats)).isOk = true ∧
    Keeps .float 1 true (HasVal [4] ((signal [axis "X" 4 false] .float fun _ => floats).data 0)) ∧
    Keeps .float 20 true (HasVal [4] ((signal [axis "Energy" 4 false] .float fun _ => floats).data 0)) ∧
    Keeps .float 20 true (HasVal [2, 2] ((signal [axis "Y" 2 true, axis "Energy" 2 false] .float fun _ => floats).data 0)) ∧
    Keeps .float 2 true (HasVal [2, 2] ((signal [axis "Y" 2 false, axis "X" 2 false] .float fun _ => floats).data 0)) ∧
    AxisFits 16 (axis "X" 4 false) ∧ AxisFits 16 (axis "Energy" 4 false) :=
  ⟨by decide +kernel, keepsOf rfl (keepsFloat (by decide)), keepsOf rfl (keepsFloat (by decide)), keepsOf rfl (keepsFloat (by decide)),
    keepsOf rfl keepsSurface, (axisFits _ (by decide) _ _).2, (axisFits _ (by decide) _ _).2⟩

example : (trip id 0 special (signal [axis "Y" 2 false, axis "X" 2 false] .float fun _ => floats)).map
    (fun r => (r.axes, r.shape, r.flat.map Option.isNone)) =
      some ([axis "Y" 2 false, axis "X" 2 false], [2, 2], [false, true, false, false]) := by decide +kernel

-- A map of spectra and series of profiles and surfaces of integers.
def ints : List Int := [1, -2, 3, 400, 32767, -32768, 0, 7]

example :
    (writeFile id 0 id args (signal [axis "Y" 2 true, axis "X" 2 true, axis "E" 2 false] .i16
      fun _ => ints.map fun (i : Int) => some (i : Rat))).isOk = true ∧
    Keeps .i16 21 false (HasVal [2, 2, 2] ((signal [axis "Y" 2 true, axis "X" 2 true, axis "E" 2 false] .i16
      fun _ => ints.map fun (i : Int) => some (i : Rat)).data 0)) ∧
    AxisFits 13 (axis "T" 2 true) ∧ (axis "T" 2 true).scale ≠ 0 :=
  ⟨by decide +kernel, keepsOf rfl (keepsInt (l := ints) (by decide) (by decide)), (axisFits _ (by decide) _ _).1, by decide +kernel⟩

example : trip id 0 args (signal [axis "Y" 2 true, axis "X" 2 true, axis "E" 2 false] .i16
      fun _ => ints.map fun (i : Int) => some (i : Rat)) =
    some ⟨[axis "Y" 2 true, axis "X" 2 true, axis "E" 2 false], [2, 2, 2], false, ints.map fun (i : Int) => some (i : Rat)⟩ := by
  decide +kernel

example : trip id 0 special (signal [axis "T" 2 true, axis "Y" 2 false, axis "X" 2 false] .i16
      fun _ => ints.map fun (i : Int) => some (i : Rat)) =
    some ⟨[axis "T" 2 true, axis "Y" 2 false, axis "X" 2 false], [2, 2, 2], true, ints.map fun (i : Int) => some (i : Rat)⟩ := by
  decide +kernel

example : trip id 0 special (signal [axis "T" 4 true, axis "X" 2 false] .i16
      fun _ => ints.map fun (i : Int) => some (i : Rat)) =
    some ⟨[axis "T" 4 true, axis "X" 2 false], [4, 2], false, ints.map fun (i : Int) => some (i : Rat)⟩ := by
  decide +kernel

-- Images: a channel has its own values.
def channels : Nat → List (Option Rat)
  | 0 => [some 1, some 2]
  | 1 => [some 3, some 4]
  | _ => [some 5, some 255]

example : trip id 0 special (signal [axis "Y" 1 false, axis "X" 2 false] .rgb8 channels) =
    some ⟨[⟨[], 3, 1, 0, [], true⟩, axis "Y" 1 false, axis "X" 2 false], [3, 1, 2], true,
      [some 1, some 2, some 3, some 4, some 5, some 255]⟩ := by decide +kernel

example : trip id 0 args (signal [axis "T" 2 true, axis "Y" 1 false, axis "X" 1 false] .rgb8 channels) =
    some ⟨[axis "T" 2 false, axis "Y" 1 false, axis "X" 1 false, axis "T" 3 true], [2, 1, 1, 3], false,
      [some 1, some 3, some 5, some 2, some 4, some 255]⟩ := by decide +kernel

/-! ### What is not kept -/

/-- The private zone of the objects of a file. -/
def privates (g : Args) (s : Sig) : Option (List Text) := match writeFile id 0 id g s with
  | .ok f => (readFile .ok f).toOption.map fun l => l.map Read.priv
  | .error _ => none

/-- C68 fails. The private zone `b"abc"` is written as text with `b'`, and cut: `b'a` comes back. -/
theorem C68_fails_private : privates { args with privateZone := [97, 98, 99] } (signal [axis "X" 2 false] .i16
    fun _ => [some 1, some 2]) = some ["b'a".toList] := by decide +kernel

/-- C69 fails. Integers beyond `2 ^ 24` in a spectrum are shifted: their minimum is stored in single precision. -/
theorem C69_fails_large : (trip id 0 args (signal [axis "Energy" 3 false] .i32
      fun _ => [some 16777217, some 16777219, some 16777220])).map Res.flat =
    some [some 16777216, some 16777218, some 16777219] := by decide +kernel

/-- C69 fails. A surface of floating-point zeros comes back with whatever the conversion of NaN to a 32-bit integer gives
(`junk`). -/
theorem C69_fails_constant : (trip id (-2147483648) args (signal [axis "Y" 1 false, axis "X" 2 false] .float
      fun _ => [some 0, some 0])).map Res.flat = some [some (-2147483648), some (-2147483648)] := by decide +kernel

/-- C69 fails. With arithmetic of single precision (data of type `float32`) the maximum does not fit into the 32-bit integer and
comes back as the minimum. -/
theorem C69_fails_single : (trip round32 (-2147483648) args (signal [axis "X" 3 false] .float
      fun _ => [some 0, some (1 / 2), some 1])).map Res.flat = some [some 0, some (1 / 2), some 0] := by decide +kernel

/-- C69 fails. Without `is_special` a missing value becomes a number. -/
theorem C69_fails_missing : (trip id (-2147483648) args (signal [axis "X" 3 false] .float
      fun _ => [some 0, none, some 1])).map Res.flat = some [some 0, some 0, some (4294967295 / 4294967296)] := by decide +kernel

/-- C69 fails. A surface of floating-point numbers whose span makes the scale a whole number comes back as the raw numbers of the file. -/
theorem C69_fails_span : (trip id 0 args (signal [axis "Y" 1 false, axis "X" 2 false] .float
      fun _ => [some 0, some 4294967295])).map Res.flat = some [some (-2147483648), some 2147483647] := by decide +kernel

/-- C70 fails. A series of one spectrum loses an axis. -/
theorem C70_fails_one_spectrum : (trip id 0 args (signal [axis "Y" 1 true, axis "Energy" 3 false] .i16
      fun _ => [some 1, some 2, some 3])).map (fun r => (r.axes, r.shape)) = some ([axis "Energy" 3 false], [3]) := by decide +kernel

/-- C70 fails. Spectra of one channel: the data lose a dimension, the axes do not. -/
theorem C70_fails_one_channel : (trip id 0 args (signal [axis "Y" 3 true, axis "Energy" 1 false] .i16
      fun _ => [some 1, some 2, some 3])).map (fun r => (r.axes, r.shape)) =
    some ([axis "Y" 3 true, axis "Energy" 1 false], [3]) := by decide +kernel

/-- C70 fails. Spectra with the channels along the first axis: the axes are exchanged, the data are not. -/
theorem C70_fails_order : (trip id 0 args (signal [axis "Energy" 2 false, axis "Y" 2 true] .i16
      fun _ => [some 1, some 2, some 3, some 4])).map (fun r => (r.axes, r.flat)) =
    some ([axis "Y" 2 true, axis "Energy" 2 false], [some 1, some 2, some 3, some 4]) := by decide +kernel

/-- C70 fails. Values above 32767 of a series of 16-bit images become negative. -/
theorem C70_fails_rgb16 : (trip id 0 args (signal [axis "T" 1 true, axis "Y" 1 false, axis "X" 1 false] .rgb16
      fun _ => [some 40000])).map Res.flat = some [some (-25536), some (-25536), some (-25536)] := by decide +kernel

/-- C70 fails. A step of zero along the axis of a series comes back as one. -/
theorem C70_fails_step : (trip id 0 args (signal [{ axis "T" 2 true with scale := 0 }, axis "X" 2 false] .i16
      fun _ => [some 1, some 2, some 3, some 4])).map (fun r => r.axes.map Axis.scale) = some [1, 1 / 2] := by decide +kernel

/-! ### C71 -/

/-- C71. Where there is one object, or one channel, the original metadata list the header of every object and channel. -/
theorem C71_partial {nObjects nChannels : Nat} {os : List Read} (h1 : nObjects = 1 ∨ nChannels ≤ 1)
    (hl : os.length = nObjects * max nChannels 1) :
    ∃ l, originalMetadata nObjects nChannels os = .ok l ∧
      ∀ i < nObjects, ∀ j < max nChannels 1, ∃ o, os[i * max nChannels 1 + j]? = some o ∧ ((i, j), o.vals) ∈ l := by
  unfold originalMetadata
  dsimp only
  have key : ∀ ks : List (Nat × Nat), (∀ k ∈ ks, k.1 < nObjects ∧ k.2 < max nChannels 1) →
      ∃ l, ks.foldr (fun k r => match os[headerFor k.1 k.2]?, r with
        | some o, .ok l => .ok ((k, o.vals) :: l)
        | none, _ => .error .indexError
        | _, .error e => .error e) (Except.ok (ε := PyErr) []) = .ok l ∧
        ∀ k ∈ ks, ∃ o, os[k.1 * max nChannels 1 + k.2]? = some o ∧ (k, o.vals) ∈ l := by
    intro ks
    induction ks with
    | nil => intro _; exact ⟨[], rfl, by simp⟩
    | cons k ks ih =>
      intro h
      obtain ⟨l, e1, e2⟩ := ih fun q hq => h q (List.mem_cons_of_mem _ hq)
      obtain ⟨b1, b2⟩ := h k (List.mem_cons_self ..)
      have hi : headerFor k.1 k.2 = k.1 * max nChannels 1 + k.2 := by
        unfold headerFor
        rcases h1 with h1 | h1
        · have : k.1 = 0 := by omega
          rw [this]
          omega
        · rw [max_eq_right h1] at b2 ⊢
          have : k.2 = 0 := by omega
          rw [this]
          omega
      have hlt : k.1 * max nChannels 1 + k.2 < os.length := by
        rw [hl]
        calc k.1 * max nChannels 1 + k.2 < (k.1 + 1) * max nChannels 1 := by rw [Nat.add_mul, Nat.one_mul]; omega
          _ ≤ _ := Nat.mul_le_mul_right _ b1
      have hg := List.getElem?_eq_getElem hlt
      refine ⟨(k, (os[k.1 * max nChannels 1 + k.2]).vals) :: l, ?_, ?_⟩
      · rw [List.foldr_cons, e1, hi, hg]
      · intro q hq
        rcases List.mem_cons.1 hq with rfl | hq
        · exact ⟨_, hg, List.mem_cons_self ..⟩
        · obtain ⟨o, o1, o2⟩ := e2 q hq
          exact ⟨o, o1, List.mem_cons_of_mem _ o2⟩
  obtain ⟨l, e1, e2⟩ := key ((List.range nObjects).flatMap fun i => (List.range (max nChannels 1)).map fun j => (i, j)) (by
    intro k hk
    obtain ⟨i, hi, hk⟩ := List.mem_flatMap.1 hk
    obtain ⟨j, hj, rfl⟩ := List.mem_map.1 hk
    exact ⟨List.mem_range.1 hi, List.mem_range.1 hj⟩)
  refine ⟨l, e1, fun i hi j hj => ?_⟩
  exact e2 (i, j) (List.mem_flatMap.2 ⟨i, List.mem_range.2 hi, List.mem_map.2 ⟨j, List.mem_range.2 hj, rfl⟩⟩)

def numbered (n : Nat) : List Read := (List.range n).map fun i => ⟨[.int i], [], [], ⟨true, []⟩⟩

example : originalMetadata 1 3 (numbered 3) = .ok [((0, 0), [.int 0]), ((0, 1), [.int 1]), ((0, 2), [.int 2])] := rfl

/-- C71 fails. For two objects of three channels the headers are mixed up: those of the second object are taken from
positions 1, 3 and 5 instead of 3, 4 and 5. -/
theorem C71_fails : originalMetadata 2 3 (numbered 6) = .ok [((0, 0), [.int 0]), ((0, 1), [.int 1]), ((0, 2), [.int 2]),
    ((1, 0), [.int 1]), ((1, 1), [.int 3]), ((1, 2), [.int 5])] := rfl

/-- C71 fails. A file without a number of objects (0) has one object and no original metadata. -/
theorem C71_fails_zero : originalMetadata 0 1 (numbered 1) = .ok [] := rfl

end Verif.Props.Digitalsurf
