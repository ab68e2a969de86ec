import Verif.Lemmas.HamamatsuImage
import Verif.Lemmas.HamamatsuMeta
/-! C84-C86: images of Hamamatsu streak cameras. -/
namespace Verif.Props.Hamamatsu
open Verif.Hamamatsu Verif.Spec.Hamamatsu Verif.Lemmas.HamamatsuImage Verif.Lemmas.HamamatsuMeta
open Verif.Renishaw (Bytes chunk number numbers decode fitAxis)

/-! ### C84: the comment -/

/-- C84 (partial). The sections and entries of a comment are read back, in their order, whatever the texts are: values between quotation marks may have commas and equality signs, plain values may have
quotation marks and equality signs. What is missing: see `C84_fails_bracket`, `C84_fails_equals` and `C84_fails_empty`. -/
theorem C84_comment_partial {ss : List Section} (hne : ss ≠ []) (h : ∀ x ∈ ss, SectionOk x) (hn : (ss.map Section.name).Nodup) :
    process (comment ss) = .ok (ss.map fun x => (x.name, x.content)) := Lemmas.Hamamatsu.process_comment hne h hn

/-- Two sections. -/
def exSections : List Section :=
  [⟨"Application".toList, [("Date".toList, .quoted "11/03/2021".toList), ("Title".toList, .quoted "a=1, b=2".toList), ("ID".toList, .plain "x\"y".toList), ("Last".toList, .quoted [])], "\r\n".toList⟩,
   ⟨"Grabber".toList, [], []⟩,
   ⟨"Camera".toList, [("AMD".toList, .plain "N".toList), ("NMD".toList, .plain "12".toList)], "\r\n".toList⟩]

theorem exSections_ok : ∀ x ∈ exSections, SectionOk x := by
  intro x hx
  simp only [exSections, List.mem_cons, List.mem_nil_iff, or_false] at hx
  rcases hx with rfl | rfl | rfl
  · refine ⟨by decide, by decide, by decide, ?_, ?_, by decide⟩
    · intro e he
      simp only [List.mem_cons, List.mem_nil_iff, or_false] at he
      rcases he with rfl | rfl | rfl | rfl <;> exact ⟨by decide, by decide, by decide, by decide⟩
    · intro k t h
      simp at h
  · exact ⟨by decide, by decide, by decide, by simp, by intro k t h; simp at h, by decide⟩
  · refine ⟨by decide, by decide, by decide, ?_, ?_, by decide⟩
    · intro e he
      simp only [List.mem_cons, List.mem_nil_iff, or_false] at he
      rcases he with rfl | rfl <;> exact ⟨by decide, by decide, by decide, by decide⟩
    · intro k t h
      simp at h
      obtain ⟨_, rfl⟩ := h
      exact ⟨by decide, by decide, by decide⟩

example : process "[Application],Date=\"11/03/2021\",Title=\"a=1, b=2\",ID=x\"y,Last=\"\"\r\n[Grabber],[Camera],AMD=N,NMD=12\r\n".toList = .ok
    [("Application".toList, .dict [("Date".toList, "11/03/2021".toList), ("Title".toList, "a=1, b=2".toList), ("ID".toList, "x\"y".toList), ("Last".toList, [])]),
     ("Grabber".toList, .text []), ("Camera".toList, .dict [("AMD".toList, "N".toList), ("NMD".toList, "12".toList)])] :=
  C84_comment_partial (ss := exSections) (by decide) exSections_ok (by decide)

/-- A value with an opening bracket cannot be read, even between quotation marks: the comment is divided at every bracket. -/
theorem C84_fails_bracket : process (comment [⟨"A".toList, [("k".toList, .quoted "x[1".toList)], []⟩]) = .error .valueError := by decide +kernel

/-- An equality sign within a value is counted as an entry; a plain value at the end is then not recognised as the last one. -/
theorem C84_fails_equals : process (comment [⟨"A".toList, [("k".toList, .quoted "a=1".toList), ("l".toList, .plain "N".toList)], []⟩]) = .error .valueError := by decide +kernel

/-- An empty plain value at the end of a section cannot be read. -/
theorem C84_fails_empty : process (comment [⟨"A".toList, [("k".toList, .plain "1".toList), ("l".toList, .plain [])], []⟩]) = .error .indexError := by decide +kernel

/-! ### C85: the image -/

/-- C85 (partial). The image and its axes are those of the file: row `i` and column `j` of the file are found at row `i` and a column `place j` (which is `j`, or counted from the other end when the
wavelengths are written backwards), the value of the axis y there is entry `i` of the table (or `i`), the value of the axis x is entry `j` of the table (or `j`). So each pixel keeps its wavelength
and its time. Units are those of the comment (`us` is written `µs`). What is missing: images of one column with a calibration, and long comments; see `C85_fails_column`, `C85_fails_long`. -/
theorem C85_image_partial {hd : Head} (hok : HeadOk hd) {ss : List Section} (hss : ∀ x ∈ ss, SectionOk x) (hnd : (ss.map Section.name).Nodup)
    {sc : Section} (hsc : sc ∈ ss) (hname : sc.name = "Scaling".toList) (hc : Ascii (comment ss)) (hcl : (comment ss).length < 32768)
    {w ht ty bytes : Nat} (hw : w < 32768) (hht : ht < 32768) (hty : PixelType ty bytes) {px : Nat → Nat → Nat} (hpx : ∀ i j, i < ht → j < w → px i j < 256 ^ bytes)
    {rest f : List UInt8} (hf : f = fileBytes hd (comment ss) w ht ty bytes px rest) {X Y : Option (List Rat)} (hX : Scaled f sc.entries "X" w X) (hY : Scaled f sc.entries "Y" ht Y)
    (h2 : X ≠ none → 2 ≤ w) :
    ∃ img place, readImg f false = .ok img ∧ (Backwards X → place = fun j => w - 1 - j) ∧ (¬ Backwards X → place = fun j => j) ∧
      img.data.length = ht ∧ (∀ r ∈ img.data, r.length = w) ∧ img.y.size = ht ∧ img.x.size = w ∧
      (∀ i j, i < ht → j < w → (img.data[i]?.bind fun r => r[place j]?) = some (px i j) ∧ axisAt img.y i = valueAt Y i ∧ axisAt img.x (place j) = valueAt X j) ∧
      (∀ v, X ≠ none → ("ScalingXUnit".toList, v) ∈ sc.entries → img.x.name = "Wavelength".toList ∧ img.x.units = some v.text) ∧
      (∀ v, Y ≠ none → ("ScalingYUnit".toList, v) ∈ sc.entries → img.y.name = "Time".toList ∧ img.y.units = some (if v.text = "us".toList then "µs".toList else v.text)) ∧
      (X = none → img.x.units = some "px".toList) ∧ (Y = none → img.y.units = some "px".toList) := by
  obtain ⟨img, e1, -, e3, e4, e5, e6, e7, e8, e9, e10, e11⟩ := read_image hok hss hnd hsc hname hc hcl hw hht hty hpx hf hX hY h2 false (by simp)
  have hnodup : (sc.entries.map Prod.fst).Nodup := (hss sc hsc).2.2.2.2.2
  have hlx := scaled_length hX
  have hly := scaled_length hY
  refine ⟨img, fun j => if turned X then w - 1 - j else j, e1, ?_, ?_, e3, e4, calOf_size hly _ e7, calOf_size (forward_length hlx) _ e6, ?_, ?_, ?_, fun h => (e8 h).2, fun h => (e10 h).2⟩
  · intro h
    rw [turned_iff.mpr h]
    rfl
  · intro h
    rw [show turned X = false by rw [← Bool.not_eq_true, turned_iff]; exact h]
    rfl
  · intro i j hi hj
    refine ⟨e5 i j hi hj, ?_, ?_⟩
    · unfold axisAt
      rw [e7]
      cases Y with
      | none =>
        show (if i < ht then some (0 + 1 * (i : Rat)) else none) = some (i : Rat)
        rw [if_pos hi]; simp
      | some ys => rfl
    · unfold axisAt
      rw [e6]
      cases X with
      | none =>
        show (if j < w then some (0 + 1 * (j : Rat)) else none) = some (j : Rat)
        rw [if_pos hj]; simp
      | some xs =>
        have hl := hlx xs rfl
        show (if turned (some xs) then xs.reverse else xs)[if turned (some xs) then w - 1 - j else j]? = xs[j]?
        cases turned (some xs) with
        | false => rfl
        | true =>
          simp only [if_true]
          rw [List.getElem?_reverse (by omega), hl]
          congr 1
          omega
  · intro v hx hv
    obtain ⟨a, b⟩ := e9 hx
    exact ⟨a, by rw [b, getKw_entries hnodup hv]⟩
  · intro v hy hv
    obtain ⟨a, b⟩ := e11 hy
    exact ⟨a, by rw [b, getKw_entries hnodup hv]; rfl⟩

/-- C85 for uniform axes: the pixels are at the same places, and a calibrated axis becomes the straight line with the least sum of squared distances from the table (in the order of the columns). -/
theorem C85_uniform {hd : Head} (hok : HeadOk hd) {ss : List Section} (hss : ∀ x ∈ ss, SectionOk x) (hnd : (ss.map Section.name).Nodup)
    {sc : Section} (hsc : sc ∈ ss) (hname : sc.name = "Scaling".toList) (hc : Ascii (comment ss)) (hcl : (comment ss).length < 32768)
    {w ht ty bytes : Nat} (hw : w < 32768) (hht : ht < 32768) (hty : PixelType ty bytes) {px : Nat → Nat → Nat} (hpx : ∀ i j, i < ht → j < w → px i j < 256 ^ bytes)
    {rest f : List UInt8} (hf : f = fileBytes hd (comment ss) w ht ty bytes px rest) {xs ys : List Rat} (hX : Scaled f sc.entries "X" w (some xs)) (hY : Scaled f sc.entries "Y" ht (some ys))
    (hx2 : 2 ≤ w) (hy2 : 2 ≤ ht) :
    ∃ img place zs o s o' s', readImg f true = .ok img ∧ img.x.cal = .uniform o s w ∧ img.y.cal = .uniform o' s' ht ∧
      (Backwards (some xs) → place = fun j => w - 1 - j) ∧ (¬ Backwards (some xs) → place = fun j => j) ∧ zs.length = w ∧ (∀ j, j < w → zs[place j]? = xs[j]?) ∧
      (∀ i j, i < ht → j < w → (img.data[i]?.bind fun r => r[place j]?) = some (px i j)) ∧
      (∀ a b, deviation zs o s ≤ deviation zs a b) ∧ ∀ a b, deviation ys o' s' ≤ deviation ys a b := by
  obtain ⟨img, e1, -, e3, e4, e5, e6, e7, -⟩ := read_image hok hss hnd hsc hname hc hcl hw hht hty hpx hf hX hY (fun _ => hx2) true (fun _ _ => hy2)
  have hl : xs.length = w := scaled_length hX xs rfl
  have hl' : ys.length = ht := scaled_length hY ys rfl
  have hz : (if turned (some xs) then xs.reverse else xs).length = w := by split <;> simp [hl]
  refine ⟨img, fun j => if turned (some xs) then w - 1 - j else j, if turned (some xs) then xs.reverse else xs,
    (fitAxis (if turned (some xs) then xs.reverse else xs)).1, (fitAxis (if turned (some xs) then xs.reverse else xs)).2, (fitAxis ys).1, (fitAxis ys).2, e1, ?_, ?_, ?_, ?_, hz, ?_, e5, ?_, ?_⟩
  · rw [e6]
    show Cal.uniform _ _ (if turned (some xs) then xs.reverse else xs).length = _
    rw [hz]
  · rw [e7]
    show Cal.uniform _ _ ys.length = _
    rw [hl']
  · intro h
    rw [turned_iff.mpr h]
    rfl
  · intro h
    rw [show turned (some xs) = false by rw [← Bool.not_eq_true, turned_iff]; exact h]
    rfl
  · intro j hj
    cases turned (some xs) with
    | false => rfl
    | true =>
      simp only [if_true]
      rw [List.getElem?_reverse (by omega), hl]
      congr 1
      omega
  · exact fit_best (by omega)
  · exact fit_best (by omega)

/-- A header. -/
def exHead : Head := ⟨[73, 77], 0, 0, 1, 1, 0, 0, List.replicate 34 0⟩

theorem exHead_ok : HeadOk exHead := ⟨rfl, by decide, rfl, by decide⟩

/-- The scaling of an image of three columns and two rows, with tables at the places `p` and `q`. -/
def exScaling (p q : String) : Section := ⟨"Scaling".toList,
  [("ScalingXType".toList, .plain "2".toList), ("ScalingXScalingFile".toList, .quoted ("#" ++ p ++ ",3").toList), ("ScalingXUnit".toList, .quoted "nm".toList),
   ("ScalingYType".toList, .plain "2".toList), ("ScalingYScalingFile".toList, .quoted ("#" ++ q ++ ",2").toList), ("ScalingYUnit".toList, .quoted "us".toList)], "\r\n".toList⟩

/-- A file with wavelengths 3, 2, 1 and times 1, 2; the tables are at the end. -/
def exFile : Bytes := fileBytes exHead (comment [exScaling "211" "223"]) 3 2 2 2 (fun i j => 10 * i + j) ([0x40400000, 0x40000000, 0x3f800000, 0x3f800000, 0x40000000].flatMap (leBytes 4))

instance (f : Bytes) (pos : Nat) (xs : List Rat) : Decidable (Table f pos xs) :=
  decidable_of_iff (∀ k, ∀ h : k < xs.length, leVal ((f.drop (pos + 4 * k)).take 4) < 256 ^ 4 ∧ xs[k] = f32Dec (leVal ((f.drop (pos + 4 * k)).take 4)) ∧
      (f.drop (pos + 4 * k)).take 4 = leBytes 4 (leVal ((f.drop (pos + 4 * k)).take 4)))
    ⟨fun h k x hx => by
      obtain ⟨hk, rfl⟩ := List.getElem?_eq_some_iff.mp hx
      obtain ⟨a, b, c⟩ := h k hk
      exact ⟨_, a, b, c⟩,
     fun h k hk => by
      obtain ⟨bits, a, b, c⟩ := h k xs[k] (List.getElem?_eq_getElem hk)
      rw [c, leVal_leBytes a]
      exact ⟨a, b, rfl⟩⟩

theorem exScaling_ok : ∀ x ∈ [exScaling "211" "223"], SectionOk x := by
  intro x hx
  rw [List.mem_singleton] at hx
  subst hx
  refine ⟨by decide, by decide, by decide, ?_, ?_, by decide⟩
  · intro e he
    simp only [exScaling, List.mem_cons, List.mem_nil_iff, or_false] at he
    rcases he with rfl | rfl | rfl | rfl | rfl | rfl <;> exact ⟨by decide +kernel, by decide +kernel, by decide +kernel, by decide +kernel⟩
  · intro k t h
    simp [exScaling] at h

theorem exFile_x : Scaled exFile (exScaling "211" "223").entries "X" 3 (some [3, 2, 1]) :=
  ⟨rfl, ⟨.plain "2".toList, by simp [exScaling], rfl⟩, 211, .quoted "#211,3".toList, by simp [exScaling], by decide +kernel, by decide +kernel⟩

theorem exFile_y : Scaled exFile (exScaling "211" "223").entries "Y" 2 (some [1, 2]) :=
  ⟨rfl, ⟨.plain "2".toList, by simp [exScaling], rfl⟩, 223, .quoted "#223,2".toList, by simp [exScaling], by decide +kernel, by decide +kernel⟩

example : (∃ img, readImg exFile false = .ok img) ∧ (∃ img, readImg exFile true = .ok img) := by
  have hpx : ∀ i j, i < 2 → j < 3 → 10 * i + j < 256 ^ 2 := by intro i j hi hj; omega
  refine ⟨?_, ?_⟩
  · obtain ⟨img, place, h1, _⟩ := C85_image_partial exHead_ok exScaling_ok (by decide) (List.mem_singleton.mpr rfl) rfl (by unfold Ascii; decide +kernel) (by decide +kernel)
      (by omega) (by omega) (ty := 2) (bytes := 2) (by unfold PixelType; decide) hpx (rest := [0x40400000, 0x40000000, 0x3f800000, 0x3f800000, 0x40000000].flatMap (leBytes 4)) rfl exFile_x exFile_y (by simp)
    exact ⟨img, h1⟩
  · obtain ⟨img, _, _, _, _, _, _, h1, _⟩ := C85_uniform exHead_ok exScaling_ok (by decide) (List.mem_singleton.mpr rfl) rfl (by unfold Ascii; decide +kernel) (by decide +kernel)
      (by omega) (by omega) (ty := 2) (bytes := 2) (by unfold PixelType; decide) hpx (rest := [0x40400000, 0x40000000, 0x3f800000, 0x3f800000, 0x40000000].flatMap (leBytes 4)) rfl exFile_x exFile_y
      (by omega) (by omega)
    exact ⟨img, h1⟩

/-- The image, turned. -/
example : (readImg exFile false).toOption.map (fun i => (i.data, i.x.cal, i.y.cal)) = some ([[2, 1, 0], [12, 11, 10]], .points [1, 2, 3], .points [1, 2]) := by decide +kernel

/-- A file of one column. -/
def exColumn : Bytes := fileBytes exHead (comment [⟨"Scaling".toList,
  [("ScalingXType".toList, .plain "2".toList), ("ScalingXScalingFile".toList, .quoted "#140,1".toList), ("ScalingYType".toList, .quoted "1".toList)], []⟩]) 1 2 2 2 (fun i j => 10 * i + j)
  (List.replicate 40 0)

/-- An image of one column with a calibration cannot be read: the table of one value is not an array. -/
theorem C85_fails_column : (match readImg exColumn false with | .error .indexError => true | _ => false) = true := by decide +kernel

/-- The length of the comment is taken as a number with sign: a file with a comment of 32768 to 65535 characters, which the two bytes can hold, cannot be read. -/
theorem C85_fails_long : (match readImg (headBytes exHead 40000 1 1 0) false with | .error .valueError => true | _ => false) = true := by decide +kernel

/-- A width of 32768 or more is taken as negative. -/
theorem C85_fails_wide : (match readImg (headBytes exHead 0 40000 1 0) false with | .error .valueError => true | _ => false) = true := by decide +kernel

/-- Pixels of the types 4 and above (and 1, `COMPRESSED`) are refused, whatever the file has. -/
theorem C85_types (f : List UInt8) (h : Header) (hh : header f = .ok h) (ht : h.fileType ≠ 0 ∧ h.fileType ≠ 2 ∧ h.fileType ≠ 3) (u : Bool) : ∃ e, readImg f u = .error e := by
  have hp : pixelBytes h.fileType = .error .runtimeError := by
    unfold pixelBytes
    rw [if_neg ht.1, if_neg ht.2.1, if_neg ht.2.2]
  have : ∃ e, parseFile f = .error e := by
    unfold parseFile
    rw [hh]
    simp only [bind, Except.bind]
    split
    · exact ⟨_, rfl⟩
    · split
      · exact ⟨_, rfl⟩
      · rw [hp]
        exact ⟨_, rfl⟩
  obtain ⟨e, he⟩ := this
  exact ⟨e, by unfold readImg; rw [he]; rfl⟩

example : ∃ h, header (headBytes exHead 0 1 1 1) = .ok h ∧ h.fileType = 1 := ⟨⟨0, 1, 1, 0, 0, 1, 1, 1, 0, 0⟩, by decide +kernel, rfl⟩

/-! ### C86: metadata -/

/-- C86: entries without a value are left out, at every depth, and all other entries are kept. -/
theorem C86_clean (d : List (Text × M)) (path : List String) (v : M) (hv : ∀ d', v ≠ .dict d') : Within (clean d) path v ↔ Within d path v ∧ v ≠ .none :=
  within_clean (by cases v <;> simp_all [Leaf]) path d

example : ∃ v : M, ∀ d', v ≠ .dict d' := ⟨.none, by simp⟩

variable {float : Text → Option Rat} {fn : Text} {md : List (Text × Sec)} {m : List (Text × M)}

/-- C86: the name of the file and, without what follows the first full stop, the title. -/
theorem C86_title (h : mapMetadata float fn md = .ok m) : Within m ["General", "original_filename"] (.text fn) ∧
    (∀ a b, fn = a ++ '.' :: b → '.' ∉ a → Within m ["General", "title"] (.text a)) ∧ ('.' ∉ fn → Within m ["General", "title"] (.text fn)) := by
  obtain ⟨g, q, d, s, hg, -, -, -, hw⟩ := mapped h
  have hmem : ("original_filename".toList, M.text fn) ∈ g ∧ ("title".toList, M.text (firstPart '.' fn)) ∈ g := by
    unfold general at hg
    dsimp only at hg
    repeat' split at hg
    all_goals (cases hg <;> simp)
  refine ⟨(hw _ _ _ (by exact trivial) (by simp)).1.mpr hmem.1, fun a b hfn ha => (hw _ _ _ (by exact trivial) (by simp)).1.mpr ?_, fun hn => (hw _ _ _ (by exact trivial) (by simp)).1.mpr ?_⟩
  · have := hmem.2
    rw [hfn, firstPart, splitChar_append ha] at this
    exact this
  · have := hmem.2
    rw [firstPart, splitChar_none hn] at this
    exact this

/-- C86: the date is turned around, and fractions of a second are left out. -/
theorem C86_date (h : mapMetadata float fn md = .ok m) {da t : Text} (hd : Noted md "Application" "Date" da) (ht : Noted md "Application" "Time" t) :
    (∀ a b c sep, sep = '/' ∨ sep = '.' → '/' ∉ a ∧ '.' ∉ a ∧ '/' ∉ b ∧ '.' ∉ b ∧ '/' ∉ c ∧ '.' ∉ c → da = a ++ sep :: b ++ sep :: c →
      Within m ["General", "date"] (.text (c ++ '-' :: b ++ '-' :: a))) ∧
    ('/' ∉ da → '.' ∉ da → Within m ["General", "date"] (.text da)) ∧
    (∀ a b, t = a ++ '.' :: b → '.' ∉ a → Within m ["General", "time"] (.text a)) ∧ ('.' ∉ t → Within m ["General", "time"] (.text t)) := by
  obtain ⟨g, q, d, s, hg, -, -, -, hw⟩ := mapped h
  obtain ⟨ap, h1, h2⟩ := hd
  obtain ⟨ap', h3, h4⟩ := ht
  rw [h1] at h3
  cases h3
  unfold general at hg
  dsimp only at hg
  rw [h1] at hg
  dsimp only at hg
  rw [h2, h4] at hg
  have hg := Except.ok.inj hg
  have m1 : ("date".toList, M.text (isoDate da)) ∈ g := by rw [← hg]; simp
  have m2 : ("time".toList, M.text (firstPart '.' t)) ∈ g := by rw [← hg]; simp
  refine ⟨fun a b c sep hs hn he => (hw _ _ _ (by exact trivial) (by simp)).1.mpr ?_, fun n1 n2 => (hw _ _ _ (by exact trivial) (by simp)).1.mpr ?_, fun a b he ha => (hw _ _ _ (by exact trivial) (by simp)).1.mpr ?_,
    fun hn => (hw _ _ _ (by exact trivial) (by simp)).1.mpr ?_⟩
  · obtain ⟨a1, a2, b1, b2, c1, c2⟩ := hn
    have e : isoDate da = c ++ '-' :: b ++ '-' :: a := by
      unfold isoDate
      rw [he, List.append_assoc, List.cons_append]
      rcases hs with rfl | rfl
      · rw [splitChar_append a1, splitChar_append b1, splitChar_none c1]
      · have hno : '/' ∉ a ++ '.' :: (b ++ '.' :: c) := by simp [a1, b1, c1]
        rw [splitChar_none hno, splitChar_append a2, splitChar_append b2, splitChar_none c2]
    rw [← e]
    exact m1
  · have e : isoDate da = da := by
      unfold isoDate
      rw [splitChar_none n1, splitChar_none n2]
    rw [e] at m1
    exact m1
  · rw [he, firstPart, splitChar_append ha] at m2
    exact m2
  · rw [firstPart, splitChar_none hn] at m2
    exact m2

/-- C86: the integration time is the time of an exposure in seconds, times the number of exposures. What is missing: other units, see `C86_fails_unit`. -/
theorem C86_time_partial (h : mapMetadata float fn md = .ok m) {t : Text} {x : Rat} {n : Nat} (hsp : ' ' ∉ t) (hx : float t = some x)
    (hn : Noted md "Acquisition" "NrExposure" (decChars n)) :
    Within m ["Acquisition_instrument", "Detector", "frames"] (.int n) ∧
    (Noted md "Acquisition" "ExposureTime" (t ++ " s".toList) → Within m ["Acquisition_instrument", "Detector", "integration_time"] (.num (x * n))) ∧
    (Noted md "Acquisition" "ExposureTime" (t ++ " ms".toList) → Within m ["Acquisition_instrument", "Detector", "integration_time"] (.num (x / 1000 * n))) := by
  obtain ⟨g, q, d, s, -, -, hd, -, hw⟩ := mapped h
  obtain ⟨acq, streak, time, bins, mode, d1, d2, d3, d4, d5, rfl⟩ := detector_ok hd
  have hk := (noted_iff d1).mp hn
  have hf : strInt (getKw "NrExposure".toList acq) = some (n : Int) := by
    rw [hk, strInt, intLit_dec]
  refine ⟨(hw _ _ _ (by exact trivial) (by simp)).2.2.1.mpr ?_, ?_, ?_⟩
  · rw [hf]
    simp [Within, mInt]
  · intro he
    have := (noted_iff d1).mp he
    unfold exposure at d3
    rw [this, hf] at d3
    dsimp only at d3
    rw [show t ++ " s".toList = t ++ ' ' :: ['s'] from rfl, integration, splitChar_append hsp, splitChar_none (by decide)] at d3
    dsimp only at d3
    rw [hx] at d3
    dsimp only at d3
    rw [if_neg (by decide)] at d3
    cases d3
    exact (hw _ _ _ (by exact trivial) (by simp)).2.2.1.mpr (by simp [Within])
  · intro he
    have := (noted_iff d1).mp he
    unfold exposure at d3
    rw [this, hf] at d3
    dsimp only at d3
    rw [show t ++ " ms".toList = t ++ ' ' :: ['m', 's'] from rfl, integration, splitChar_append hsp, splitChar_none (by decide)] at d3
    dsimp only at d3
    rw [hx] at d3
    dsimp only at d3
    rw [if_pos (by decide)] at d3
    cases d3
    exact (hw _ _ _ (by exact trivial) (by simp)).2.2.1.mpr (by simp [Within])

/-- C86: the binning, the corrections (`-1` for yes, `0` for no), the time range and its unit, the name and the gain of the camera, and the mode. -/
theorem C86_detector (h : mapMetadata float fn md = .ok m) :
    (∀ a b, Noted md "Acquisition" "pntBinning" (decChars a ++ ',' :: decChars b) → Within m ["Acquisition_instrument", "Detector", "binning"] (.pair [(a : Int), (b : Int)])) ∧
    (∀ e ∈ [("shading_correction", "ShadingCorr"), ("background_correction", "BacksubCorr"), ("curvature_correction", "CurveCorr"), ("defect_correction", "DefectCorrection")],
      ∀ b : Bool, Within m ["Acquisition_instrument", "Detector", "processing", e.1] (.bool b) ↔ Noted md "Acquisition" e.2 (if b then "-1" else "0").toList) ∧
    (∀ t u x, ' ' ∉ t → ' ' ∉ u → float t = some x → Noted md "Streak camera" "Time Range" (t ++ ' ' :: u) →
      Within m ["Acquisition_instrument", "Detector", "time_range"] (.num x) ∧
      Within m ["Acquisition_instrument", "Detector", "time_range_units"] (.text (if u = "us".toList then "µs".toList else u))) ∧
    (∀ t, Within m ["Acquisition_instrument", "Detector", "model"] (.text t) ↔ Noted md "Streak camera" "DeviceName" t) ∧
    (∀ x, Within m ["Acquisition_instrument", "Detector", "mcp_gain"] (.num x) ↔ ∃ t, Noted md "Streak camera" "MCP Gain" t ∧ float t = some x) ∧
    ∀ e ∈ [("1", "live"), ("2", "acquire"), ("3", "photon_counting"), ("4", "analog_integration")], Noted md "Acquisition" "AcqMode" e.1.toList →
      Within m ["Acquisition_instrument", "Detector", "acquisition_mode"] (.text e.2.toList) := by
  obtain ⟨g, q, d, s, -, -, hd, -, hw⟩ := mapped h
  obtain ⟨acq, streak, time, bins, mode, d1, d2, d3, d4, d5, hde⟩ := detector_ok hd
  refine ⟨fun a b hn => (hw _ _ _ (by exact trivial) (by simp)).2.2.1.mpr ?_, ?_, ?_, ?_, ?_, ?_⟩
  · have hk := (noted_iff d1).mp hn
    unfold binning at d4
    rw [hk] at d4
    dsimp only at d4
    rw [splitChar_append (no_comma _), splitChar_none (no_comma _)] at d4
    dsimp only at d4
    rw [intLit_dec, intLit_dec] at d4
    have d4 := Except.ok.inj d4
    rw [hde, ← d4]
    simp [Within]
  · intro e he b
    rw [(hw _ _ (.bool b) trivial (by simp)).2.2.1, noted_iff d1, ← strBool_iff]
    have hpr : Within d ["processing", e.1] (.bool b) ↔ (e.1.toList, M.bool b) ∈ [("shading_correction".toList, strBool (getKw "ShadingCorr".toList acq)),
        ("background_correction".toList, strBool (getKw "BacksubCorr".toList acq)), ("curvature_correction".toList, strBool (getKw "CurveCorr".toList acq)),
        ("defect_correction".toList, strBool (getKw "DefectCorrection".toList acq))] := by
      rw [Within]
      · constructor
        · rintro ⟨d', h1, h2⟩
          rw [hde, mem_fixed (by decide)] at h1
          rw [Within] at h2
          simp at h1
          rw [h1] at h2
          exact h2
        · intro h1
          refine ⟨_, ?_, by rw [Within]; exact h1⟩
          rw [hde, mem_fixed (by decide)]
          simp
      · simp
    rw [hpr]
    simp only [List.mem_cons, List.mem_nil_iff, or_false] at he
    rcases he with rfl | rfl | rfl | rfl <;> (rw [eq_comm (a := strBool _)]; simp)
  · intro t u x ht hu hx hn
    have hk := (noted_iff d2).mp hn
    have hsp : splitChar ' ' (t ++ ' ' :: u) = [t, u] := by rw [splitChar_append ht, splitChar_none hu]
    rw [hk] at hde
    dsimp only at hde
    rw [hsp] at hde
    dsimp only at hde
    rw [hx] at hde
    refine ⟨(hw _ _ _ (by exact trivial) (by simp)).2.2.1.mpr ?_, (hw _ _ _ (by exact trivial) (by simp)).2.2.1.mpr ?_⟩
    · rw [hde]; simp [Within, mNum]
    · rw [hde]; simp [Within]
  · intro t
    rw [(hw _ _ (.text t) trivial (by simp)).2.2.1, noted_iff d2, hde, Within, mem_fixed (by decide)]
    cases getKw "DeviceName".toList streak with
    | none => simp [mText]
    | some t' => simp [mText]; exact eq_comm
  · intro x
    rw [(hw _ _ (.num x) trivial (by simp)).2.2.1, hde, Within, mem_fixed (by decide)]
    simp only [noted_iff d2]
    cases getKw "MCP Gain".toList streak with
    | none => simp [mNum, strFloat]
    | some t =>
      simp [strFloat]
      cases float t <;> simp [mNum, eq_comm]
  · intro e he hn
    have hk := (noted_iff d1).mp hn
    rw [hk] at d5
    refine (hw _ _ _ (by exact trivial) (by simp)).2.2.1.mpr ?_
    rw [hde, Within, mem_fixed (by decide)]
    simp only [List.mem_cons, List.mem_nil_iff, or_false] at he
    have hm : acqMode mode = e.2.toList := by
      rcases he with rfl | rfl | rfl | rfl
      · have : intOf (some "1".toList) = .ok 1 := by decide +kernel
        rw [this] at d5; cases d5; rfl
      · have : intOf (some "2".toList) = .ok 2 := by decide +kernel
        rw [this] at d5; cases d5; rfl
      · have : intOf (some "3".toList) = .ok 3 := by decide +kernel
        rw [this] at d5; cases d5; rfl
      · have : intOf (some "4".toList) = .ok 4 := by decide +kernel
        rw [this] at d5; cases d5; rfl
    rw [hm]
    simp

/-- C86: the quantity of the signal, and what is known of the spectrometer. -/
theorem C86_spectrometer (h : mapMetadata float fn md = .ok m) :
    (∀ q u, Noted md "Acquisition" "ZAxisLabel" q → Noted md "Acquisition" "ZAxisUnit" u →
      Within m ["Signal", "quantity"] (.text (q ++ " (".toList ++ (if u = "Count".toList then "Counts".toList else u) ++ ")".toList))) ∧
    (∀ t, Within m ["Acquisition_instrument", "Spectrometer", "model"] (.text t) ↔ Noted md "Spectrograph" "DeviceName" t) ∧
    (∀ x, Within m ["Acquisition_instrument", "Spectrometer", "entrance_slit_width"] (.num x) ↔ ∃ t, Noted md "Spectrograph" "Side Ent. Slitw." t ∧ float t = some x) ∧
    (∀ x, Within m ["Acquisition_instrument", "Spectrometer", "central_wavelength"] (.num x) ↔ ∃ t, Noted md "Spectrograph" "Wavelength" t ∧ float t = some x) ∧
    (∀ x, Within m ["Acquisition_instrument", "Spectrometer", "Grating", "blazing_wavelength"] (.num x) ↔
      ¬ Noted md "Spectrograph" "Ruling" "0".toList ∧ ∃ t, Noted md "Spectrograph" "Blaze" t ∧ float t = some x) ∧
    ∀ n u, ' ' ∉ u → ¬ Noted md "Spectrograph" "Ruling" "0".toList → Noted md "Spectrograph" "Grating" (decChars n ++ ' ' :: u) →
      Within m ["Acquisition_instrument", "Spectrometer", "Grating", "groove_density"] (.num n) := by
  obtain ⟨g, q, d, s, -, hq, -, hs, hw⟩ := mapped h
  have hnum : ∀ (o : Option Text) (x : Rat), M.num x = mNum (strFloat float o) ↔ ∃ t, o = some t ∧ float t = some x := by
    intro o x
    cases o with
    | none => simp [mNum, strFloat]
    | some t => simp [strFloat]; cases float t <;> simp [mNum, eq_comm]
  have htext : ∀ (o : Option Text) (t : Text), M.text t = mText o ↔ o = some t := by
    intro o t
    cases o with
    | none => simp [mText]
    | some t' => simp [mText]; exact eq_comm
  cases hsp : sectionOf md "Spectrograph" with
  | error e => unfold spectrometer at hs; rw [hsp] at hs; cases hs
  | ok sp =>
  unfold spectrometer at hs
  rw [hsp] at hs
  have hs := Except.ok.inj hs
  refine ⟨?_, ?_, ?_, ?_, ?_, ?_⟩
  · intro ql u h1 h2
    obtain ⟨a, h3, h4⟩ := h1
    obtain ⟨a', h5, h6⟩ := h2
    rw [h3] at h5
    cases h5
    refine (hw _ _ _ (by exact trivial) (by simp)).2.1.mpr ?_
    unfold signal at hq
    rw [h3] at hq
    dsimp only at hq
    rw [h4, h6] at hq
    cases hq
    simp [Within]
  · intro t
    rw [(hw _ _ (.text t) trivial (by simp)).2.2.2, noted_iff hsp, ← hs, Within, List.mem_append]
    rw [← htext (getKw "DeviceName".toList sp)]
    constructor
    · rintro (h1 | h1)
      · split at h1 <;> simp at h1
      · simpa using h1
    · intro h1
      right
      simp [h1]
  · intro x
    rw [(hw _ _ (.num x) trivial (by simp)).2.2.2, ← hs, Within, List.mem_append]
    simp only [noted_iff hsp, ← hnum]
    constructor
    · rintro (h1 | h1)
      · split at h1 <;> simp at h1
      · simpa using h1
    · intro h1
      right
      simp [h1]
  · intro x
    rw [(hw _ _ (.num x) trivial (by simp)).2.2.2, ← hs, Within, List.mem_append]
    simp only [noted_iff hsp, ← hnum]
    constructor
    · rintro (h1 | h1)
      · split at h1 <;> simp at h1
      · simpa using h1
    · intro h1
      right
      simp [h1]
  · intro x
    rw [(hw _ _ (.num x) trivial (by simp)).2.2.2, ← hs, noted_iff hsp]
    simp only [noted_iff hsp, ← hnum]
    rw [Within]
    · constructor
      · rintro ⟨d', h1, h2⟩
        rw [List.mem_append] at h1
        rcases h1 with h1 | h1
        · split at h1
          · rename_i hr
            simp at h1
            rw [h1, Within] at h2
            refine ⟨hr, ?_⟩
            simpa using h2
          · cases h1
        · simp at h1
      · rintro ⟨h1, h2⟩
        refine ⟨[("blazing_wavelength".toList, mNum (strFloat float (getKw "Blaze".toList sp))), ("groove_density".toList,
          mNum (match getKw "Grating".toList sp with
            | none => none
            | some g => match splitChar ' ' g with
              | [a, _] => (strInt (some a)).map fun (i : Int) => (i : Rat)
              | _ => float g))], List.mem_append_left _ ?_, ?_⟩
        · rw [if_pos h1]
          exact List.mem_singleton.mpr rfl
        · rw [Within]
          simp [h2]
    · simp
  · intro n u hu h1 h2
    rw [noted_iff hsp] at h1 h2
    refine (hw _ _ _ (by exact trivial) (by simp)).2.2.2.mpr ?_
    rw [h2, if_pos h1] at hs
    dsimp only at hs
    have hno : ' ' ∉ decChars n := fun h => absurd (decChars_digits n _ h) (by decide)
    rw [splitChar_append hno, splitChar_none hu] at hs
    dsimp only at hs
    rw [strInt, intLit_dec] at hs
    rw [← hs]
    simp [Within, mNum]

/-- Sections of a comment. -/
def exMd : List (Text × Sec) :=
  [("Application".toList, .dict [("Date".toList, "11/03/2021".toList), ("Time".toList, "16:18:29.118".toList)]),
   ("Acquisition".toList, .dict [("NrExposure".toList, "60".toList), ("ExposureTime".toList, "500 ms".toList), ("pntBinning".toList, "2,4".toList), ("AcqMode".toList, "4".toList),
     ("ShadingCorr".toList, "-1".toList), ("BacksubCorr".toList, "0".toList), ("CurveCorr".toList, "7".toList), ("ZAxisLabel".toList, "Intensity".toList), ("ZAxisUnit".toList, "Count".toList)]),
   ("Streak camera".toList, .dict [("DeviceName".toList, "C5680".toList), ("MCP Gain".toList, "50".toList), ("Time Range".toList, "5 us".toList)]),
   ("Spectrograph".toList, .dict [("DeviceName".toList, "Andor".toList), ("Grating".toList, "300 g/mm".toList), ("Blaze".toList, "500".toList), ("Ruling".toList, "300".toList),
     ("Wavelength".toList, "600".toList), ("Side Ent. Slitw.".toList, "10".toList)])]

/-- Whole numbers. -/
def flt (t : Text) : Option Rat := match intLit t with
  | .ok i => some i
  | .error _ => none

theorem exMd_ok : ∃ m, mapMetadata flt "a.img".toList exMd = .ok m := by
  cases h : mapMetadata flt "a.img".toList exMd with
  | ok m => exact ⟨m, rfl⟩
  | error e =>
    have : (match mapMetadata flt "a.img".toList exMd with | .ok _ => true | .error _ => false) = true := by decide +kernel
    rw [h] at this
    cases this

/-- The hypotheses of the theorems on metadata. -/
example : Noted exMd "Application" "Date" "11/03/2021".toList ∧ Noted exMd "Application" "Time" ("16:18:29".toList ++ '.' :: "118".toList) ∧
    Noted exMd "Acquisition" "NrExposure" (decChars 60) ∧ Noted exMd "Acquisition" "ExposureTime" ("500".toList ++ " ms".toList) ∧ flt "500".toList = some 500 ∧
    Noted exMd "Acquisition" "pntBinning" (decChars 2 ++ ',' :: decChars 4) ∧ Noted exMd "Acquisition" "ShadingCorr" "-1".toList ∧
    Noted exMd "Streak camera" "Time Range" ("5".toList ++ ' ' :: "us".toList) ∧ Noted exMd "Spectrograph" "Grating" (decChars 300 ++ ' ' :: "g/mm".toList) ∧
    Noted exMd "Acquisition" "AcqMode" "4".toList := by
  refine ⟨⟨_, rfl, by decide +kernel⟩, ⟨_, rfl, by decide +kernel⟩, ⟨_, rfl, by decide +kernel⟩, ⟨_, rfl, by decide +kernel⟩, by decide +kernel, ⟨_, rfl, by decide +kernel⟩, ⟨_, rfl, by decide +kernel⟩,
    ⟨_, rfl, by decide +kernel⟩, ⟨_, rfl, by decide +kernel⟩, ⟨_, rfl, by decide +kernel⟩⟩

/-- Some of the conclusions. -/
example : ∃ m, mapMetadata flt "a.img".toList exMd = .ok m ∧ Within m ["General", "title"] (.text "a".toList) ∧ Within m ["General", "date"] (.text "2021-03-11".toList) ∧
    Within m ["Acquisition_instrument", "Detector", "integration_time"] (.num 30) := by
  obtain ⟨m, hm⟩ := exMd_ok
  refine ⟨m, hm, (C86_title hm).2.1 "a".toList "img".toList rfl (by decide), ?_, ?_⟩
  · exact (C86_date hm (da := "11/03/2021".toList) (t := "16:18:29.118".toList) ⟨_, rfl, by decide +kernel⟩ ⟨_, rfl, by decide +kernel⟩).1 "11".toList "03".toList "2021".toList '/' (.inl rfl) (by decide) (by decide +kernel)
  · have := (C86_time_partial hm (t := "500".toList) (x := 500) (n := 60) (by decide) (by decide +kernel) ⟨_, rfl, by decide +kernel⟩).2.2 ⟨_, rfl, by decide +kernel⟩
    rwa [show (500 : Rat) / 1000 * (60 : Nat) = 30 by norm_num] at this

/-- An acquisition. -/
def acq (l : List (String × String)) : List (Text × Sec) := [("Acquisition".toList, .dict (l.map fun e => (e.1.toList, e.2.toList)))]

/-- Microseconds are taken as seconds: 3 exposures of 500 µs give an integration time of 1500 seconds. -/
theorem C86_fails_unit : exposure flt [("NrExposure".toList, "3".toList), ("ExposureTime".toList, "500 us".toList)] = .ok (some 1500) := by decide +kernel

/-- A file which tells the time of an exposure, but not the number of exposures, cannot be read: `None` is multiplied. -/
theorem C86_fails_frames : (match mapMetadata flt "a.img".toList (acq [("AcqMode", "1"), ("ExposureTime", "5 s")]) with | .error .typeError => true | _ => false) = true := by decide +kernel

/-- A file without a mode of acquisition cannot be read. -/
theorem C86_fails_mode : (match mapMetadata flt "a.img".toList (acq [("NrExposure", "1")]) with | .error .typeError => true | _ => false) = true := by decide +kernel

/-- A date without leading zeros does not become a date of ISO 8601. -/
theorem C86_fails_date : isoDate "9/3/2021".toList = "2021-3-9".toList := by decide +kernel

/-- The title of a file whose name has a full stop loses all that follows it, not only the extension. -/
theorem C86_fails_title : firstPart '.' "sample.run2.img".toList = "sample".toList := by decide +kernel

/-- A blaze of `0` (no blaze known) is meant to be left out, but it is compared as a text with a number; it stays. -/
theorem C86_fails_blaze : ∀ m, mapMetadata flt "a.img".toList (acq [("AcqMode", "1")] ++ [("Spectrograph".toList, .dict [("Blaze".toList, "0".toList), ("Ruling".toList, "300".toList)])]) = .ok m →
    Within m ["Acquisition_instrument", "Spectrometer", "Grating", "blazing_wavelength"] (.num 0) := by
  intro m h
  refine ((C86_spectrometer h).2.2.2.2.1 0).mpr ⟨?_, "0".toList, ⟨_, rfl, by decide +kernel⟩, by decide +kernel⟩
  rintro ⟨d, h1, h2⟩
  have e : d = [("Blaze".toList, "0".toList), ("Ruling".toList, "300".toList)] := by
    have := h1.symm.trans (show _ = some (Sec.dict [("Blaze".toList, "0".toList), ("Ruling".toList, "300".toList)]) by decide +kernel)
    cases this
    rfl
  rw [e] at h2
  revert h2
  decide +kernel

example : (match mapMetadata flt "a.img".toList (acq [("AcqMode", "1")] ++ [("Spectrograph".toList, .dict [("Blaze".toList, "0".toList), ("Ruling".toList, "300".toList)])]) with
    | .ok _ => true | .error _ => false) = true := by decide +kernel

end Verif.Props.Hamamatsu
