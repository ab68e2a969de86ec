import Verif.Lemmas.DigitalsurfPart
namespace Verif.Lemmas.Digitalsurf
open Verif.Digitalsurf Verif.Spec.Digitalsurf Verif.BytesSpec

/-! ### Files -/

/-- The part that was written and the object that is read. -/
def PartBack (g : Args) (s : Split) (p : Part) (r : Read) : Prop :=
  (∃ n d c, BackAll (header g s p.type n d c) r.vals) ∧
    ∀ R M, Spread (· ∈ p.points) R M → List.Forall₂ (Close (bound p.dtype R M)) p.points r.points.vals

/-- The part can be written and read. -/
def PartFits (g : Args) (s : Split) (p : Part) : Prop :=
  p.points.length = count s p.type ∧ p.type ∈ ofTypes ∧ Keeps p.dtype p.type g.special (· ∈ p.points)

theorem parts_read {unzip : Bytes → Py Bytes} {zip : Bytes → Bytes} (hz : ∀ b, unzip (zip b) = .ok b)
    {junk : Int} (hj : -2147483648 ≤ junk ∧ junk ≤ 2147483647) {g : Args} {s : Split} :
    ∀ {parts : List Part} {k : Text} {os : List Obj} {f : Bytes}, buildAll id junk zip g s k parts = .ok os → writeAll os = .ok f →
      (∀ p ∈ parts, PartFits g s p) → ∃ rs, readMany unzip parts.length f = .ok rs ∧ List.Forall₂ (PartBack g s) parts rs ∧
        ∀ r ∈ rs.head?, Trim (k.take 32767) r.comment
  | [], k, os, f, hb, hw, _ => ⟨[], rfl, .nil, by simp⟩
  | p :: ps, k, os, f, hb, hw, hp => by
    unfold buildAll at hb
    cases h1 : build id junk zip g s k p with
    | error e => rw [h1] at hb; contradiction
    | ok o =>
      rw [h1] at hb
      dsimp only at hb
      cases h2 : buildAll id junk zip g s [] ps with
      | error e => rw [h2] at hb; contradiction
      | ok os' =>
        rw [h2] at hb
        injection hb with hb
        subst hb
        unfold writeAll at hw
        cases h3 : writeObj o with
        | error e => rw [h3] at hw; contradiction
        | ok b =>
          rw [h3] at hw
          dsimp only at hw
          cases h4 : writeAll os' with
          | error e => rw [h4] at hw; contradiction
          | ok bs =>
            rw [h4] at hw
            injection hw with hw
            subst hw
            obtain ⟨g1, g2, g3⟩ := hp p (List.mem_cons_self ..)
            obtain ⟨r, n, d, c, r1, r2, r3, r4, r5⟩ := part_read hz hj h1 h3 g1 g2 g3 bs
            obtain ⟨rs, s1, s2, -⟩ := parts_read hz hj h2 h4 (fun q hq => hp q (List.mem_cons_of_mem _ hq))
            refine ⟨r :: rs, ?_, .cons ⟨⟨n, d, c, r2⟩, fun R M h => r5 R M h.1 h.2⟩ s2, ?_⟩
            · rw [List.length_cons, readMany, r1]
              dsimp only
              rw [s1]
            · intro r' hr'
              cases hr'
              exact r3

theorem hdr_len (g : Args) (s : Split) (t : Int) (n : Norm) (d c : Nat) : (header g s t n d c).length = layout.length := rfl

theorem back_nObjects {g : Args} {s : Split} {p : Part} {r : Read} (h : PartBack g s p r) : intOf r.vals 3 = s.nObjects := by
  obtain ⟨⟨n, d, c, hb⟩, -⟩ := h
  exact back_int hb (hdr_len ..) (k := .u16) rfl rfl

theorem back_nChannels {g : Args} {s : Split} {p : Part} {r : Read} (h : PartBack g s p r) : intOf r.vals 8 = s.nChannels := by
  obtain ⟨⟨n, d, c, hb⟩, -⟩ := h
  exact back_int hb (hdr_len ..) (k := .i16) rfl rfl

theorem back_type {g : Args} {s : Split} {p : Part} {r : Read} (h : PartBack g s p r) : intOf r.vals 5 = p.type := by
  obtain ⟨⟨n, d, c, hb⟩, -⟩ := h
  exact back_int hb (hdr_len ..) (k := .i16) rfl rfl

theorem back_points {g : Args} {s : Split} {p : Part} {r : Read} (h : PartBack g s p r) : intOf r.vals 18 = extent s.x := by
  obtain ⟨⟨n, d, c, hb⟩, -⟩ := h
  exact back_int hb (hdr_len ..) (k := .i32) rfl rfl

theorem back_lines {g : Args} {s : Split} {p : Part} {r : Read} (h : PartBack g s p r) : intOf r.vals 19 = extent s.y := by
  obtain ⟨⟨n, d, c, hb⟩, -⟩ := h
  exact back_int hb (hdr_len ..) (k := .i32) rfl rfl

theorem back_w {g : Args} {s : Split} {p : Part} {r : Read} (h : PartBack g s p r) (h21 : p.type = 21) :
    intOf r.vals 14 = ((s.t.map Axis.size).getD 0 : Nat) := by
  obtain ⟨⟨n, d, c, hb⟩, -⟩ := h
  have : intOf r.vals 14 = intOf (header g s p.type n d c) 14 := back_int hb (hdr_len ..) (k := .u32) rfl rfl
  rw [this]
  change (if p.type = 21 then (((s.t.map Axis.size).getD 0 : Nat) : Int) else 0) = _
  rw [if_pos h21]

theorem plain_trim {n : Nat} {t u : Text} (hp : Plain n t) (h : Trim (t.take n) u) : u = t := by
  rw [List.take_of_length_le hp.1] at h
  rw [← trim_eq h]
  have := strip_eq (a := []) (z := []) (t := t) (by simp) (by simp) hp.2.1 hp.2.2
  simpa using this

theorem single_back {r q : Rat} (hs : Single r) {m : Nat} (he : f32Enc r = some m) (hq : q = f32Dec m) : q = r := by
  obtain ⟨m', h1, h2⟩ := hs
  rw [he] at h1
  cases h1
  rw [hq, h2]

theorem back_xAx {g : Args} {s : Split} {p : Part} {r : Read} (h : PartBack g s p r) {a : Axis} (ha : s.x = some a)
    (hf : AxisFits 16 a) (nav : Bool) : xAx r.vals nav = { a with navigate := nav } := by
  have hs := back_points h
  obtain ⟨⟨n, d, c, hb⟩, -⟩ := h
  have h24 := back_text hb (hdr_len ..) (n := 24) (k := .str 16) rfl rfl
  have h27 := back_text hb (hdr_len ..) (n := 27) (k := .str 16) rfl rfl
  obtain ⟨m1, e1, q1⟩ := back_float hb (hdr_len ..) (n := 21) (k := .f32) rfl rfl
  obtain ⟨m2, e2, q2⟩ := back_float hb (hdr_len ..) (n := 53) (k := .f32) rfl rfl
  change Trim ((nameOf s.x).take 16) _ at h24
  change Trim ((unitsOf s.x).take 16) _ at h27
  change f32Enc (scaleOf s.x) = _ at e1
  change f32Enc (offsetOf s.x) = _ at e2
  rw [ha] at hs h24 h27 e1 e2
  unfold xAx
  rw [hs, plain_trim hf.1 h24, plain_trim hf.2.1 h27, single_back hf.2.2.1 e1 q1, single_back hf.2.2.2 e2 q2]
  rfl

theorem back_yAx {g : Args} {s : Split} {p : Part} {r : Read} (h : PartBack g s p r) {a : Axis} (ha : s.y = some a)
    (hf : AxisFits 16 a) (nav : Bool) : yAx r.vals nav = { a with navigate := nav } := by
  have hs := back_lines h
  obtain ⟨⟨n, d, c, hb⟩, -⟩ := h
  have h24 := back_text hb (hdr_len ..) (n := 25) (k := .str 16) rfl rfl
  have h27 := back_text hb (hdr_len ..) (n := 28) (k := .str 16) rfl rfl
  obtain ⟨m1, e1, q1⟩ := back_float hb (hdr_len ..) (n := 22) (k := .f32) rfl rfl
  obtain ⟨m2, e2, q2⟩ := back_float hb (hdr_len ..) (n := 54) (k := .f32) rfl rfl
  change Trim ((nameOf s.y).take 16) _ at h24
  change Trim ((unitsOf s.y).take 16) _ at h27
  change f32Enc (scaleOf s.y) = _ at e1
  change f32Enc (offsetOf s.y) = _ at e2
  rw [ha] at hs h24 h27 e1 e2
  unfold yAx
  rw [hs, plain_trim hf.1 h24, plain_trim hf.2.1 h27, single_back hf.2.2.1 e1 q1, single_back hf.2.2.2 e2 q2]
  rfl

theorem back_tAx {g : Args} {s : Split} {p : Part} {r : Read} (h : PartBack g s p r) {a : Axis} (ha : s.t = some a)
    (hf : AxisFits 13 a) (h0 : a.scale ≠ 0) {field : Nat} (hs : intOf r.vals field = a.size) (nav : Bool) :
    tAx r.vals field nav = { a with navigate := nav } := by
  obtain ⟨⟨n, d, c, hb⟩, -⟩ := h
  have h24 := back_text hb (hdr_len ..) (n := 58) (k := .str 13) rfl rfl
  have h27 := back_text hb (hdr_len ..) (n := 59) (k := .str 13) rfl rfl
  obtain ⟨m1, e1, q1⟩ := back_float hb (hdr_len ..) (n := 56) (k := .f32) rfl rfl
  obtain ⟨m2, e2, q2⟩ := back_float hb (hdr_len ..) (n := 57) (k := .f32) rfl rfl
  change Trim ((nameOf s.t).take 13) _ at h24
  change Trim ((unitsOf s.t).take 13) _ at h27
  change f32Enc (scaleOf s.t) = _ at e1
  change f32Enc (offsetOf s.t) = _ at e2
  rw [ha] at h24 h27 e1 e2
  unfold tAx
  rw [hs, plain_trim hf.1 h24, plain_trim hf.2.1 h27, single_back hf.2.2.1 e1 q1, single_back hf.2.2.2 e2 q2]
  change (⟨a.name, _, if a.scale = 0 then 1 else a.scale, a.offset, a.units, nav⟩ : Axis) = _
  rw [if_neg h0]
  rfl

/-- The colour axis of images. -/
theorem back_colour {g : Args} {s : Split} {p : Part} {r : Read} (h : PartBack g s p r) (ht : s.t = none) (nav : Bool) :
    tAx r.vals 8 nav = ⟨[], s.nChannels, 1, 0, [], nav⟩ := by
  have hs := back_nChannels h
  obtain ⟨⟨n, d, c, hb⟩, -⟩ := h
  have h24 := back_text hb (hdr_len ..) (n := 58) (k := .str 13) rfl rfl
  have h27 := back_text hb (hdr_len ..) (n := 59) (k := .str 13) rfl rfl
  obtain ⟨m1, e1, q1⟩ := back_float hb (hdr_len ..) (n := 56) (k := .f32) rfl rfl
  obtain ⟨m2, e2, q2⟩ := back_float hb (hdr_len ..) (n := 57) (k := .f32) rfl rfl
  change Trim ((nameOf s.t).take 13) _ at h24
  change Trim ((unitsOf s.t).take 13) _ at h27
  change f32Enc (scaleOf s.t) = _ at e1
  change f32Enc (offsetOf s.t) = _ at e2
  rw [ht] at h24 h27 e1 e2
  change f32Enc 0 = _ at e1
  change f32Enc 0 = _ at e2
  have hz : ∀ {m : Nat}, f32Enc 0 = some m → f32Dec m = 0 := by
    intro m hm
    have := f32_exact_int (i := 0) (by simpa using hm) (by norm_num)
    simpa using this
  have p0 : Plain 13 [] := ⟨by simp, by simp, by simp⟩
  unfold tAx
  rw [hs, plain_trim p0 h24, plain_trim p0 h27, q1, q2, hz e1, hz e2, if_pos rfl]
  rfl

/-- The objects of a file. -/
theorem file_read {unzip : Bytes → Py Bytes} {zip : Bytes → Bytes} (hz : ∀ b, unzip (zip b) = .ok b)
    {junk : Int} (hj : -2147483648 ≤ junk ∧ junk ≤ 2147483647) {g : Args} {s : Sig} {sp : Split} {f : Bytes}
    (hw : writeFile id junk zip g s = .ok f) (hs : split s = .ok sp) (hp : ∀ p ∈ sp.parts, PartFits g sp p)
    (hne : sp.parts ≠ []) (hc : max sp.nChannels 1 * max sp.nObjects 1 = sp.parts.length) :
    ∃ rs, readFile unzip f = .ok rs ∧ List.Forall₂ (PartBack g sp) sp.parts rs ∧
      ∀ r ∈ rs.head?, Trim (g.comment.take 32767) r.comment := by
  unfold writeFile at hw
  rw [hs] at hw
  dsimp only at hw
  cases hb : buildAll id junk zip g sp g.comment sp.parts with
  | error e => rw [hb] at hw; contradiction
  | ok os =>
    rw [hb] at hw
    dsimp only at hw
    obtain ⟨rs, r1, r2, r3⟩ := parts_read hz hj hb hw hp
    refine ⟨rs, ?_, r2, r3⟩
    cases hparts : sp.parts with
    | nil => exact absurd hparts hne
    | cons p ps =>
      rw [hparts, List.length_cons, readMany] at r1
      unfold readFile
      cases h1 : readObj unzip f with
      | error e => rw [h1] at r1; contradiction
      | ok x =>
        obtain ⟨r, f'⟩ := x
        rw [h1] at r1
        dsimp only at r1 ⊢
        have hr : PartBack g sp p r := by
          cases h2 : readMany unzip ps.length f' with
          | error e => rw [h2] at r1; contradiction
          | ok rs' =>
            rw [h2] at r1
            injection r1 with r1
            rw [← r1, hparts] at r2
            cases r2 with
            | cons h _ => exact h
        rw [back_nObjects hr, back_nChannels hr]
        have : (max (sp.nChannels : Int) 1 * max (sp.nObjects : Int) 1).toNat - 1 = ps.length := by
          have e : (max (sp.nChannels : Int) 1 * max (sp.nObjects : Int) 1) = ((max sp.nChannels 1 * max sp.nObjects 1 : Nat) : Int) := by
            push_cast
            rfl
          rw [e, Int.toNat_natCast, hc, hparts, List.length_cons]
          rfl
        rw [this]
        exact r1

/-! ### Arrays -/

theorem mem_ravel {α : Type} : ∀ {shape : List Nat} {f : List Nat → α} {d : α},
    d ∈ ravel shape f ↔ ∃ I, InBounds shape I ∧ f I = d
  | [], f, d => by
    unfold ravel
    constructor
    · intro h
      exact ⟨[], .nil, (List.mem_singleton.1 h).symm⟩
    · rintro ⟨I, h, rfl⟩
      cases h
      simp
  | n :: ns, f, d => by
    unfold ravel
    rw [List.mem_flatMap]
    constructor
    · rintro ⟨i, hi, h⟩
      obtain ⟨I, h1, h2⟩ := mem_ravel.1 h
      exact ⟨i :: I, .cons (List.mem_range.1 hi) h1, h2⟩
    · rintro ⟨I, h, rfl⟩
      cases h with
      | cons h1 h2 => exact ⟨_, List.mem_range.2 h1, mem_ravel.2 ⟨_, h2, rfl⟩⟩

theorem values_of {e : Rat} {shape : List Nat} {data : List Nat → Option Rat} {flat : List (Option Rat)}
    (h : List.Forall₂ (Close e) (ravel shape data) flat) : Values e shape data flat := by
  have hl := h.length_eq
  rw [length_ravel] at hl
  refine ⟨hl.symm, fun I hI => ?_⟩
  have hlt := flatIndex_lt hI
  have h1 : flatIndex shape I < (ravel shape data).length := by rw [length_ravel]; exact hlt
  have h2 : flatIndex shape I < flat.length := by omega
  refine ⟨flat[flatIndex shape I], List.getElem?_eq_getElem h2, ?_⟩
  have := List.Forall₂.get h h1 h2
  have e1 := ravel_getElem data hI
  rw [List.getElem?_eq_getElem h1] at e1
  injection e1 with e1
  rw [← e1]
  exact this

theorem flat_close {g : Args} {s : Split} {parts : List Part} {rs : List Read} {ty : DType} {R M : Rat}
    (h : List.Forall₂ (PartBack g s) parts rs) (ht : ∀ p ∈ parts, p.dtype = ty)
    (hr : ∀ p ∈ parts, Spread (· ∈ p.points) R M) :
    List.Forall₂ (Close (bound ty R M)) (parts.flatMap Part.points) (rs.flatMap fun r => r.points.vals) := by
  induction h with
  | nil => exact .nil
  | @cons p r ps rs h1 _ ih =>
    rw [List.flatMap_cons, List.flatMap_cons]
    refine List.rel_append ?_ (ih (fun q hq => ht q (List.mem_cons_of_mem _ hq)) (fun q hq => hr q (List.mem_cons_of_mem _ hq)))
    have := h1.2 R M (hr p (List.mem_cons_self ..))
    rw [ht p (List.mem_cons_self ..)] at this
    exact this

theorem close_length {g : Args} {s : Split} {p : Part} {r : Read} (h : PartBack g s p r) :
    r.points.vals.length = p.points.length := by
  obtain ⟨R, M, hs⟩ : ∃ R M, Spread (· ∈ p.points) R M := by
    have : ∀ l : List (Option Rat), ∃ M, 0 ≤ M ∧ ∀ a, some a ∈ l → |a| ≤ M := by
      intro l
      induction l with
      | nil => exact ⟨0, le_refl _, by simp⟩
      | cons d l ih =>
        obtain ⟨M, h0, h1⟩ := ih
        refine ⟨max M ((d.map fun x => |x|).getD 0), le_max_of_le_left h0, fun a ha => ?_⟩
        rcases List.mem_cons.1 ha with rfl | ha
        · exact le_max_right _ _
        · exact (h1 a ha).trans (le_max_left _ _)
    obtain ⟨M, h0, h1⟩ := this p.points
    refine ⟨2 * M, M, fun a b ha hb => ?_, h1⟩
    have := abs_le.1 (h1 a ha)
    have := abs_le.1 (h1 b hb)
    linarith
  exact (h.2 R M hs).length_eq.symm

theorem reshapeAll_ok {shape : List Nat} : ∀ {rs : List Read}, (∀ r ∈ rs, r.points.vals.length = size shape) →
    reshapeAll shape rs = .ok (rs.flatMap fun r => r.points.vals)
  | [], _ => rfl
  | r :: rs, h => by
    unfold reshapeAll reshape
    rw [if_pos (h r (List.mem_cons_self ..))]
    dsimp only
    rw [reshapeAll_ok (fun q hq => h q (List.mem_cons_of_mem _ hq))]
    rfl

theorem lengths {g : Args} {s : Split} {parts : List Part} {rs : List Read} {n : Nat}
    (h : List.Forall₂ (PartBack g s) parts rs) (hl : ∀ p ∈ parts, p.points.length = n) : ∀ r ∈ rs, r.points.vals.length = n := by
  induction h with
  | nil => intro r hr; cases hr
  | cons h1 _ ih =>
    intro r hr
    rcases List.mem_cons.1 hr with rfl | hr
    · rw [close_length h1, hl _ (List.mem_cons_self ..)]
    · exact ih (fun p hp => hl p (List.mem_cons_of_mem _ hp)) r hr

end Verif.Lemmas.Digitalsurf
