import Verif.Lemmas.PhenomSignals
/-!
C108: ELID files: data, axes, titles and order of the signals. C109: their metadata.
-/
namespace Verif.Props.Phenom
open Verif.Phenom
open Verif.Spec.Phenom (Project Image Seen ImageOk FreeOk FileOk Fits IsBzip2 ShowsImage ImageMetadata isConstructive ShowsAnalysis AnalysisMetadata
  ShowsPicture PictureMetadata listOf Common Eds At Frame Picture)
open Verif.Lemmas.Phenom

/-! ### Lists of pictures and analyses -/

theorem reads_some {α β : Type} {p : Rd β} {enc : α → List UInt8} {P : α → β → Prop} : ∀ {l : List α},
    (∀ a ∈ l, ∃ b, Reads p (enc a) b ∧ P a b) → ∃ bs, Reads (rep l.length p) (l.flatMap enc) bs ∧ List.Forall₂ P l bs
  | [], _ => ⟨[], Reads.pure _, .nil⟩
  | a :: l, h => by
    obtain ⟨b, h1, h2⟩ := h a List.mem_cons_self
    obtain ⟨bs, h3, h4⟩ := reads_some fun x hx => h x (List.mem_cons_of_mem _ hx)
    exact ⟨b :: bs, Reads.bind h1 (Reads.last h3 (Reads.pure _)), .cons h2 h4⟩

theorem reads_zip {α γ β : Type} {p : Rd β} {enc : α → List UInt8} {Q : α → γ → Prop} {P : α → γ → β → Prop} (h : ∀ a c, Q a c → ∃ b, Reads p (enc a) b ∧ P a c b) :
    ∀ {l : List α} {cs : List γ}, List.Forall₂ Q l cs →
      ∃ bs, Reads (rep l.length p) (l.flatMap enc) bs ∧ List.Forall₂ (fun x b => P x.1 x.2 b) (l.zip cs) bs
  | [], [], _ => ⟨[], Reads.pure _, .nil⟩
  | a :: l, c :: cs, .cons ha hl => by
    obtain ⟨b, h1, h2⟩ := h a c ha
    obtain ⟨bs, h3, h4⟩ := reads_zip h hl
    exact ⟨b :: bs, Reads.bind h1 (Reads.last h3 (Reads.pure _)), .cons h2 h4⟩

theorem results_filter {env : Env} {v : Nat} {n : Seen} : ∀ {l : List Spec.Phenom.Analysis} {rs : List (Option Sig)}, List.Forall₂ (Result env v n) l rs →
    List.Forall₂ (fun a s => ShowsAnalysis env n.tiff n.label a s ∧ AnalysisMetadata env v n a s) (l.filter fun a => !isConstructive a) (rs.filterMap id)
  | [], [], _ => .nil
  | a :: l, r :: rs, .cons h hl => by
    have ih := results_filter hl
    rcases h with ⟨h1, rfl⟩ | ⟨h1, s, rfl, h2⟩
    · rw [List.filter_cons_of_neg (by simp [h1]), List.filterMap_cons_none rfl]
      exact ih
    · rw [List.filter_cons_of_pos (by simp [h1]), List.filterMap_cons_some (f := id) (b := s) rfl]
      exact .cons h2 ih

/-- The signals of a picture with their metadata. -/
def Part (env : Env) (v : Nat) (i : Image) (n : Seen) (rs : List (Option Sig)) : Prop :=
  ShowsImage env i n (rs.filterMap id) ∧ ImageMetadata env v i n (rs.filterMap id)

theorem reads_image {env : Env} {v : Nat} {i : Image} {n : Seen} (h : ImageOk env v i n) :
    ∃ rs, Reads (image env v) (Spec.Phenom.image v i) rs ∧ Part env v i n rs := by
  obtain ⟨j, date, hm, ham⟩ := am_ok h.picture
  obtain ⟨s, hs, hp, hpm⟩ := picture_ok ham n.label
  have hk : Known env v n j date := ⟨ham, fun hv => old_ok ham (h.old hv).1 (h.old hv).2⟩
  obtain ⟨rs, h1, h2⟩ := reads_some fun a ha => analysis_ok hk (h.analyses a ha)
  obtain ⟨hb, hne, ht, _⟩ := h.picture
  have h3 := results_filter h2
  refine ⟨some s :: rs, ?_, ⟨s, rs.filterMap id, rfl, hp, h3.imp fun _ _ h => h.1⟩, s, rs.filterMap id, rfl, hpm, h3.imp fun _ _ h => h.2⟩
  unfold Spec.Phenom.image image
  simp only [List.append_assoc]
  refine Reads.bind (reads_tiff hb hne ht hm) (Reads.bind (reads_str h.label.1 h.label.2) (Reads.bind0 (Reads.lift hs) ?_))
  refine Reads.last ?_ (Reads.pure _)
  exact Reads.bind (reads_u32 h.fits) h1

theorem reads_free {env : Env} {v : Nat} (hv : 1 ≤ v) {l : List Spec.Phenom.Analysis} (hl : Fits l) (h : ∀ a ∈ l, FreeOk env a) :
    ∃ rs, Reads (analyses env v [] (.dict [])) (listOf (Spec.Phenom.analysis v) l) rs := by
  have hg : v = 0 → Lemmas.Phenom.Old env (.dict []) [] := fun h0 => by omega
  obtain ⟨rs, h1, _⟩ := reads_some (p := analysis env v [] (.dict [])) (enc := Spec.Phenom.analysis v) (P := fun _ _ => True) (l := l) fun a ha => by
    have := h a ha
    cases a with
    | msa c =>
      obtain ⟨hok, hcut, t, hu⟩ := this
      obtain ⟨s, om, h1, _⟩ := reads_msa (label := []) (date := none) hok hcut hu hg ⟨_, rfl⟩ rfl
      exact ⟨some s, Reads.bind (reads_u8 1) (Reads.last h1 (Reads.pure _)), trivial⟩
    | constructive c d s => exact ⟨none, analysis_constructive hg this.1 this.2.1 this.2.2.1 this.2.2.2, trivial⟩
    | _ => exact this.elim
  exact ⟨rs, Reads.bind (reads_u32 hl) h1⟩

theorem flatten_some {α : Type} : ∀ ls : List (List (Option α)), ls.flatten.filterMap id = (ls.map fun l => l.filterMap id).flatten
  | [] => rfl
  | l :: ls => by rw [List.flatten_cons, List.filterMap_append, flatten_some ls]; rfl

theorem magic_ok {raw : List UInt8} (h : IsBzip2 raw) : magic raw = none := by
  obtain ⟨a, b, rest, rfl⟩ := h
  unfold magic
  rw [if_neg (by simp), if_neg (by simp), if_neg (by simp), if_pos ⟨rfl, rfl⟩]

theorem forall₂_map {α β γ : Type} {P : α → γ → Prop} {f : β → γ} : ∀ {l : List α} {bs : List β}, List.Forall₂ (fun a b => P a (f b)) l bs →
    List.Forall₂ P l (bs.map f)
  | [], [], _ => .nil
  | _ :: _, _ :: _, .cons h hl => .cons h (forall₂_map hl)

theorem read_ok {env : Env} {v : Nat} {raw : List UInt8} {p : Project} {ns : List Seen} (h : FileOk env v raw p ns) :
    ∃ parts, Verif.Phenom.read env false raw = .ok parts.flatten ∧
      List.Forall₂ (fun x part => ShowsImage env x.1 x.2 part ∧ ImageMetadata env v x.1 x.2 part) (p.images.zip ns) parts := by
  obtain ⟨ls, h1, h2⟩ := reads_zip (P := Part env v) (fun _ _ hi => reads_image hi) h.images
  obtain ⟨rest, hrest⟩ := h.content
  have himg : Reads (images env v) (listOf (Spec.Phenom.image v) p.images) ls.flatten := Reads.bind (reads_u32 h.count) (Reads.last h1 (Reads.pure _))
  have hv := h.version
  have hproj : Reads (project env v) (listOf (Spec.Phenom.image v) p.images ++
      (if 1 ≤ v then listOf (Spec.Phenom.analysis v) p.analyses ++ listOf (Spec.Phenom.analysis v) p.constructive else []))
      (ls.flatten.filterMap id) := by
    unfold project
    refine Reads.bind himg ?_
    by_cases h1v : 1 ≤ v
    · rw [if_pos h1v, if_pos (by omega)]
      obtain ⟨f1, f2, f3⟩ := h.free h1v
      obtain ⟨r1, g1⟩ := reads_free h1v f1 fun a ha => f3 a (List.mem_append_left _ ha)
      obtain ⟨r2, g2⟩ := reads_free h1v f2 fun a ha => f3 a (List.mem_append_right _ ha)
      exact Reads.bind g1 (Reads.last g2 (Reads.pure _))
    · rw [if_neg h1v, if_neg (by omega)]
      exact Reads.pure _
  have hfile : Reads (start env) (Spec.Phenom.project v p) (ls.flatten.filterMap id) := by
    unfold start Spec.Phenom.project
    simp only [List.append_assoc]
    refine Reads.bind (reads_take (bs := [69, 73, 68, 50]) rfl) (Reads.bind (reads_i32 (i := (v : Int)) ⟨by omega, by omega⟩) ?_)
    rw [if_neg (by simp), if_neg (by omega)]
    exact hproj
  refine ⟨ls.map fun l => l.filterMap id, ?_, forall₂_map (P := fun (x : Image × Seen) part => ShowsImage env x.1 x.2 part ∧ ImageMetadata env v x.1 x.2 part)
    (f := fun l : List (Option Sig) => l.filterMap id) (h2.imp fun _ _ h => h)⟩
  unfold Verif.Phenom.read
  rw [if_neg (by simp), magic_ok h.bzip2]
  dsimp only
  rw [hrest, hfile rest, ← flatten_some]
  rfl

/-- C108: the signals of an ELID file of the versions 0 to 4 are, for each picture, the picture and then its analyses in the order
of the file, with the data, axes and titles that the file states. Partial: the hypotheses leave out pictures without a TIFF, analyses in
pictures without metadata (except MSA), spectra of line scans and maps with a calibration other than that of their sum,
maps in pictures that are not square, and analyses outside of pictures, see the theorems `_fails_`. -/
theorem C108_signals_partial {env : Env} {v : Nat} {raw : List UInt8} {p : Project} {ns : List Seen} (h : FileOk env v raw p ns) :
    ∃ parts, Verif.Phenom.read env false raw = .ok parts.flatten ∧ List.Forall₂ (fun x part => ShowsImage env x.1 x.2 part) (p.images.zip ns) parts := by
  obtain ⟨parts, h1, h2⟩ := read_ok h
  exact ⟨parts, h1, h2.imp fun _ _ h => h.1⟩

/-- C109: the metadata of a signal of an analysis is the metadata of the spectrum as stored, in that of the picture. Partial: as C108;
and elements of the XML that occur twice, attributes of elements with children, and for line scans and maps parts of the
common metadata are lost, see the theorems `_fails_`. -/
theorem C109_metadata_partial {env : Env} {v : Nat} {raw : List UInt8} {p : Project} {ns : List Seen} (h : FileOk env v raw p ns) :
    ∃ parts, Verif.Phenom.read env false raw = .ok parts.flatten ∧ List.Forall₂ (fun x part => ImageMetadata env v x.1 x.2 part) (p.images.zip ns) parts := by
  obtain ⟨parts, h1, h2⟩ := read_ok h
  exact ⟨parts, h1, h2.imp fun _ _ h => h.2⟩

/-- C108: other files are rejected: what is not compressed with bzip2, what is not a project, and newer versions. -/
theorem C108_rejects (env : Env) (raw : List UInt8) :
    Verif.Phenom.read env true raw = .error .notImplemented ∧
    (¬ IsBzip2 raw → ∃ e, Verif.Phenom.read env false raw = .error e) ∧
    (∀ rest id v, IsBzip2 raw → env.bz2 raw = id ++ Spec.Phenom.signed v ++ rest → id.length = 4 → Spec.Phenom.Fits32 v →
      id ≠ [69, 73, 68, 50] ∨ 4 < v → Verif.Phenom.read env false raw = .error .runtimeError) := by
  refine ⟨rfl, fun h => ?_, fun rest id v hb hr hid hv hbad => ?_⟩
  · unfold Verif.Phenom.read
    rw [if_neg (by simp)]
    cases hm : magic raw with
    | some e => exact ⟨e, rfl⟩
    | none =>
      refine absurd ?_ h
      unfold magic at hm
      split at hm
      · exact absurd hm (by simp)
      split at hm
      · exact absurd hm (by simp)
      split at hm
      · exact absurd hm (by simp)
      split at hm
      · rename_i h1 h2 h3 h4
        obtain ⟨h4, h5⟩ := h4
        have hlen : 10 ≤ raw.length := by omega
        refine ⟨raw[2], raw[3], raw.drop 10, ?_⟩
        have e1 : raw = raw.take 2 ++ (raw.drop 2).take 2 ++ (raw.drop 4).take 6 ++ raw.drop 10 := by
          have a1 : raw.drop 4 = (raw.drop 4).take 6 ++ raw.drop 10 := by
            conv_lhs => rw [← List.take_append_drop 6 (raw.drop 4)]
            rw [List.drop_drop]
          have a2 : raw.drop 2 = (raw.drop 2).take 2 ++ raw.drop 4 := by
            conv_lhs => rw [← List.take_append_drop 2 (raw.drop 2)]
            rw [List.drop_drop]
          rw [List.append_assoc, List.append_assoc, ← a1, ← a2, List.take_append_drop]
        have e2 : (raw.drop 2).take 2 = [raw[2], raw[3]] := by
          rw [List.drop_eq_getElem_cons (by omega), List.take_succ_cons, List.drop_eq_getElem_cons (by omega), List.take_succ_cons, List.take_zero]
        rw [h4, h5, e2] at e1
        exact e1
      · exact absurd hm (by simp)
  · unfold Verif.Phenom.read
    rw [if_neg (by simp), magic_ok hb]
    dsimp only
    have hs : start env (env.bz2 raw) = .error .runtimeError := by
      rw [hr, List.append_assoc]
      unfold start
      have h1 := reads_take hid (Spec.Phenom.signed v ++ rest)
      have h2 := reads_i32 hv rest
      simp only [bind, StateT.bind, Except.bind, h1, h2]
      by_cases hi : id ≠ [69, 73, 68, 50]
      · rw [if_pos hi]; rfl
      · rw [if_neg hi, if_pos (by rcases hbad with h | h; exact absurd h hi; exact h)]; rfl
    rw [hs]
    rfl

/-! ### Examples and violations -/

/-- An element without children. -/
def leaf (t : String) (x : String) : Elem := .mk t.toList [] (some x.toList) []

/-- An element with children. -/
def node (t : String) (c : List Elem) : Elem := .mk t.toList [] none c

/-- Metadata of a picture with pixels of 1 m by 1 m. -/
def xml : Elem := node "FeiImage" [leaf "pixelHeight" "1", .mk "pixelWidth".toList [("unit".toList, "mm".toList)] (some "1000".toList) [],
  node "acquisition" [node "scan" [node "detectors" [leaf "BSD" "on"], leaf "scanScale" "1", leaf "spotSize" "3", leaf "highVoltage" "15000"]],
  leaf "time" "2020-01-02T12:30", leaf "workingDistance" "5", leaf "sample" "steel"]

/-- Functions that compute something simple. -/
def env : Env where
  bz2 := fun raw => raw.drop 10
  f64 := fun n => n
  utf8 := fun bs => .ok (bs.map fun b => Char.ofNat b.toNat)
  tiff := fun bs => match bs with
    | [1] => .ok ⟨2, 2, [1, 2, 3, 4], some xml⟩
    | [2] => .ok ⟨1, 2, [1, 2], some xml⟩
    | [3] => .ok ⟨1, 2, [1, 2], some (node "FeiImage" [leaf "pixelHeight" "1", leaf "pixelWidth" "1",
        node "acquisition" [node "scan" [node "detectors" [leaf "BSD" "on"]]], leaf "time" "today"])⟩
    | [4] => .ok ⟨1, 2, [1, 2], some (node "FeiImage" [leaf "pixelHeight" "1", leaf "pixelWidth" "1",
        node "acquisition" [.mk "scan".toList [("mode".toList, "fast".toList)] none [node "detectors" [leaf "BSD" "on"]]],
        leaf "note" "first", leaf "note" "second"])⟩
    | _ => .ok ⟨1, 2, [5, 6], none⟩
  float := fun t => .ok (decVal t)

/-- Metadata of a spectrum. -/
def edsA : Eds := ⟨15000, 45, 1, 10, 11, 2, 3, 130, [65], 4, 5, 6, 7, 8, 9, 1, 2⟩

/-- The common part of an analysis. -/
def commonA : Common := ⟨[], 1000, 10, [7, 300], edsA, [26, 8], [6], [-1, 4], [(26, 2, 3)], true, -12, [(26, 1)], 1, [79]⟩

/-- A line scan of two spectra. -/
def lineA : Spec.Phenom.Line := ⟨1, 2, 3, 4, 2, 1000, 10, edsA, [[1, 200], [3, 4]], .each [5, 6], .all 7, true⟩

/-- A map of one row with two spectra. -/
def mapA : Spec.Phenom.Map := ⟨1, 2, 3, 4, [5], 2, 2, 1000, 10, edsA, [[[1, 200], [3, 4]]], .each [5, 6], .all 7⟩

/-- A picture with all analyses. -/
def imageA : Image := ⟨[1], [66], [.constructive commonA [67] [(1, 2)], .msa commonA, .spot commonA 1 2, .line commonA lineA, .map commonA mapA,
  .difference commonA 3 4, .region commonA 1 2 3 4]⟩

/-- A project: this picture, a picture without metadata, and analyses that belong to no picture. -/
def projectA : Project := ⟨[imageA, ⟨[9], [], [.msa commonA]⟩], [.msa commonA], [.constructive commonA [67] [(1, 2)]]⟩

/-- What is in the pictures. -/
def seenA : List Seen := [⟨⟨2, 2, [1, 2, 3, 4], some xml⟩, ['B'], some (5, 3)⟩, ⟨⟨1, 2, [5, 6], none⟩, [], none⟩]

/-- A file. -/
def file (v : Nat) (p : Project) : List UInt8 := [66, 90, 104, 57, 0x31, 0x41, 0x59, 0x26, 0x53, 0x59] ++ Spec.Phenom.project v p

theorem at_one {k : String} {ks : List String} {e c x : Elem} (pre post : List Elem) (he : Spec.Phenom.children e = pre ++ c :: post)
    (ht : Spec.Phenom.tag c = k.toList) (hu : ∀ t ∈ (pre ++ post).map Spec.Phenom.tag, t ≠ k.toList) (h : At ks c x) : At (k :: ks) e x := by
  refine .child (by rw [he]; simp) ht (fun c' hc' htag => ?_) h
  rw [he] at hc'
  by_contra hne
  refine hu (Spec.Phenom.tag c') (List.mem_map.2 ⟨c', ?_, rfl⟩) (by rw [htag, ht])
  rcases List.mem_append.1 hc' with h | h
  · exact List.mem_append_left _ h
  · rcases List.mem_cons.1 h with h | h
    · exact absurd h hne
    · exact List.mem_append_right _ h

/-- The element of the scan. -/
def scanA : Elem := node "scan" [node "detectors" [leaf "BSD" "on"], leaf "scanScale" "1", leaf "spotSize" "3", leaf "highVoltage" "15000"]

theorem at_scan {ks : List String} {x : Elem} (h : At ks scanA x) : At ("acquisition" :: "scan" :: ks) xml x :=
  at_one [leaf "pixelHeight" "1", .mk "pixelWidth".toList [("unit".toList, "mm".toList)] (some "1000".toList) []]
    [leaf "time" "2020-01-02T12:30", leaf "workingDistance" "5", leaf "sample" "steel"] rfl rfl (by decide +kernel)
    (at_one (c := scanA) [] [] rfl rfl (by decide +kernel) h)

theorem frame_xml : Frame env xml 1 1 (some ("2020-01-02".toList, "12:30".toList)) where
  root := rfl
  height := ⟨_, at_one [] _ rfl rfl (by decide +kernel) (.here _), rfl, "1".toList, 1, rfl, rfl, .inl ⟨rfl, rfl⟩⟩
  width := ⟨_, at_one [leaf "pixelHeight" "1"] _ rfl rfl (by decide +kernel) (.here _), rfl, "1000".toList, 1000, rfl, rfl,
    .inr ⟨"mm".toList, 1 / 1000, rfl, rfl, by norm_num⟩⟩
  detectors := ⟨_, at_scan (at_one [] _ rfl rfl (by decide +kernel) (.here _)), by simp [Spec.Phenom.children, node]⟩
  date := .inr ⟨leaf "time" "2020-01-02T12:30", "2020-01-02".toList, "12:30".toList,
    at_one [leaf "pixelHeight" "1", .mk "pixelWidth".toList [("unit".toList, "mm".toList)] (some "1000".toList) [], node "acquisition" [scanA]] _ rfl rfl
      (by decide +kernel) (.here _), rfl, rfl, rfl, by decide +kernel, by decide +kernel, rfl⟩

theorem picture_xml : Picture env [1] ⟨2, 2, [1, 2, 3, 4], some xml⟩ :=
  ⟨by unfold Fits; decide, by simp, rfl, fun e he => by cases he; exact ⟨_, _, _, frame_xml⟩⟩

theorem common_a : Spec.Phenom.CommonOk env commonA :=
  ⟨⟨by unfold Fits; decide, by unfold Fits; decide, by unfold Eds.Ok Fits; decide, by unfold Spec.Phenom.Elements Fits; decide,
    by unfold Spec.Phenom.Elements Fits; decide, by unfold Spec.Phenom.Fits32 Fits; decide, by unfold Fits; decide, by unfold Spec.Phenom.Fits32; decide,
    by unfold Fits; decide, by unfold Spec.Phenom.Elements Fits; decide⟩, .inl rfl, ['A'], rfl⟩

theorem line_a : lineA.Ok :=
  ⟨by unfold Fits; decide, by decide, by decide, by decide, by unfold Eds.Ok Fits; decide, rfl, trivial⟩

theorem map_a : mapA.Ok :=
  ⟨by unfold Fits; decide, by unfold Fits; decide, by decide, by decide, by decide, by decide, by unfold Eds.Ok Fits; decide, rfl, trivial, by decide⟩

theorem image_a (v : Nat) : ImageOk env v imageA ⟨⟨2, 2, [1, 2, 3, 4], some xml⟩, ['B'], some (5, 3)⟩ where
  picture := picture_xml
  label := ⟨by unfold Fits; decide, rfl⟩
  fits := by unfold Fits; decide
  old := fun _ => ⟨fun h => absurd h (by simp), fun e he => by
    cases he
    exact .inr ⟨leaf "workingDistance" "5", 5, leaf "spotSize" "3", "3".toList, 3,
      at_one [leaf "pixelHeight" "1", .mk "pixelWidth".toList [("unit".toList, "mm".toList)] (some "1000".toList) [], node "acquisition" [scanA],
        leaf "time" "2020-01-02T12:30"] _ rfl rfl (by decide +kernel) (.here _), ⟨rfl, "5".toList, 5, rfl, rfl, .inl ⟨rfl, rfl⟩⟩,
      at_scan (at_one [node "detectors" [leaf "BSD" "on"], leaf "scanScale" "1"] _ rfl rfl (by decide +kernel) (.here _)), rfl, rfl, rfl, rfl, rfl⟩⟩
  analyses := by
    have hx : (some xml : Option Elem) ≠ none := by simp
    unfold imageA
    simp only [List.forall_mem_cons]
    refine ⟨⟨common_a, by unfold Fits; decide, by unfold Fits; decide, ['C'], rfl⟩, common_a, ⟨common_a, hx⟩, ⟨common_a, hx, line_a, ⟨['A'], rfl⟩, rfl, rfl⟩,
      ⟨common_a, map_a, ⟨['A'], rfl⟩, rfl, rfl, xml, 1, 1, _, 1, rfl, frame_xml, rfl, leaf "scanScale" "1", "1".toList,
        at_scan (at_one [node "detectors" [leaf "BSD" "on"]] _ rfl rfl (by decide +kernel) (.here _)), rfl, rfl, rfl, rfl⟩,
      ⟨common_a, hx⟩, ⟨common_a, hx⟩, fun _ h => absurd h List.not_mem_nil⟩

/-- The hypotheses of C108 and C109 hold for files of all versions. -/
theorem file_a {v : Nat} (hv : v ≤ 4) : FileOk env v (file v projectA) projectA seenA where
  version := hv
  bzip2 := ⟨104, 57, _, rfl⟩
  content := ⟨[], by rw [List.append_nil]; rfl⟩
  count := by unfold Fits; decide
  images := .cons (image_a v) (.cons ⟨⟨by unfold Fits; decide, by simp, rfl, fun e he => by cases he⟩, ⟨by unfold Fits; decide, rfl⟩, by unfold Fits; decide,
    fun _ => ⟨fun _ => rfl, fun e he => by cases he⟩, fun a ha => by rw [List.mem_singleton.1 ha]; exact common_a⟩ .nil)
  free := fun _ => ⟨by unfold Fits; decide, by unfold Fits; decide, by
    unfold projectA
    simp only [List.cons_append, List.nil_append, List.forall_mem_cons]
    exact ⟨common_a, ⟨common_a, by unfold Fits; decide, by unfold Fits; decide, ['C'], rfl⟩, fun _ h => absurd h List.not_mem_nil⟩⟩

/-- The titles in the example. -/
example : (Verif.Phenom.read env false (file 4 projectA)).map (fun l => l.map Sig.title) =
    .ok ["B".toList, "B, MSA -12".toList, "B, Spot -12".toList, "B, Line -12".toList, "B, Map -12".toList, "B, Difference 3 - 4".toList,
      "B, Region -12".toList, [], ", MSA -12".toList] := by decide +kernel

/-- The data and the shapes in the example. -/
example : (Verif.Phenom.read env false (file 0 projectA)).map (fun l => l.map fun s => (s.shape, s.data)) =
    .ok [([2, 2], [1, 2, 3, 4]), ([2], [7, 300]), ([2], [7, 300]), ([2, 2], [1, 200, 3, 4]), ([1, 2, 2], [1, 200, 3, 4]), ([2], [7, 300]), ([2], [7, 300]),
      ([1, 2], [5, 6]), ([2], [7, 300])] := by decide +kernel

theorem nth_signal {α : Type} {r : Py (List Sig)} {i : Nat} {f : Sig → α} {x : α} (h : r.map (fun l => l[i]?.map f) = .ok (some x)) :
    ∃ l s, r = .ok l ∧ l[i]? = some s ∧ f s = x := by
  cases r with
  | error e => exact absurd h (by simp [Except.map])
  | ok l =>
    have h' : l[i]?.map f = some x := Except.ok.inj h
    cases hi : l[i]? with
    | none => rw [hi] at h'; exact absurd h' (by simp)
    | some s => rw [hi] at h'; exact ⟨l, s, rfl, hi, Option.some.inj h'⟩

/-- A line scan whose spectra have an offset other than that of their sum. -/
def lineB : Spec.Phenom.Line := { lineA with offset := 2000 }

/-- The axis of a line scan is made from the calibration of the sum spectrum, not from that of the line scan. -/
theorem C108_line_fails_calibration : lineB.Ok ∧ ∃ l s, Verif.Phenom.read env false (file 4 ⟨[⟨[1], [66], [.line commonA lineB]⟩], [], []⟩) = .ok l ∧ l[1]? = some s ∧
    ∀ t, ¬ Spec.Phenom.ShowsLine env lineB t s := by
  refine ⟨⟨by unfold Fits; decide, by decide, by decide, by decide, by unfold Eds.Ok Fits; decide, rfl, trivial⟩, ?_⟩
  obtain ⟨l, s, h1, h2, h3⟩ := nth_signal (r := Verif.Phenom.read env false (file 4 ⟨[⟨[1], [66], [.line commonA lineB]⟩], [], []⟩)) (i := 1)
    (f := fun s => s.axes.map Axis.offset) (x := [0, 1]) (by decide +kernel)
  refine ⟨l, s, h1, h2, fun t => ?_⟩
  rintro ⟨_, _, _, _, i, a, ha, _, he⟩
  have ho : a.offset = 1 := by
    have h4 : [i.offset, a.offset] = [0, 1] := by rw [← h3, ha]; rfl
    exact (List.cons.inj (List.cons.inj h4).2).1
  have := he.2.2.2.2.1
  rw [ho] at this
  exact absurd this (by decide +kernel)

/-- A picture of two columns and one row: pixels of a map of one row and two columns have the height 1 m and the width 1 m; the reader
gives 2 m for the height. -/
theorem C108_map_fails_rectangular : ∃ l s, Verif.Phenom.read env false (file 4 ⟨[⟨[2], [66], [.map commonA mapA]⟩], [], []⟩) = .ok l ∧ l[1]? = some s ∧
    Frame env xml 1 1 (some ("2020-01-02".toList, "12:30".toList)) ∧ ∀ t, ¬ Spec.Phenom.ShowsMap env mapA (1 * (1 : Nat) * 1) (1 * (2 : Nat) * 1) t s := by
  obtain ⟨l, s, h1, h2, h3⟩ := nth_signal (r := Verif.Phenom.read env false (file 4 ⟨[⟨[2], [66], [.map commonA mapA]⟩], [], []⟩)) (i := 1)
    (f := fun s => s.axes.map fun a => (a.scale, a.units)) (x := [(2, ['m']), (1, ['m']), (1 / 100, "keV".toList)]) (by decide +kernel)
  refine ⟨l, s, h1, h2, frame_xml, fun t => ?_⟩
  rintro ⟨_, _, _, _, y, x, a, ha, hy, _, _⟩
  have hs : y.scale = 2 ∧ y.units = ['m'] := by
    have h4 : [(y.scale, y.units), (x.scale, x.units), (a.scale, a.units)] = [(2, ['m']), (1, ['m']), (1 / 100, "keV".toList)] := by rw [← h3, ha]; rfl
    have h5 := (List.cons.inj h4).1
    exact ⟨congrArg Prod.fst h5, congrArg Prod.snd h5⟩
  obtain ⟨_, _, _, _, f, hf, hq⟩ := hy
  rw [hs.2] at hf
  have hf' : f = 1 := (Option.some.inj hf).symm
  rw [hs.1, hf'] at hq
  exact absurd hq (by decide +kernel)

/-- An entry without a picture makes the whole file unreadable. -/
theorem C108_picture_fails_missing : (Verif.Phenom.read env false (file 4 ⟨[imageA, ⟨[], [66], []⟩], [], []⟩)).map List.length = .error .attributeError := by
  decide +kernel

/-- A spot analysis in a picture without metadata makes the whole file unreadable. -/
theorem C108_spot_fails_plain : (Verif.Phenom.read env false (file 4 ⟨[imageA, ⟨[9], [66], [.spot commonA 1 2]⟩], [], []⟩)).map List.length = .error .keyError := by
  decide +kernel

/-- A spot analysis that belongs to no picture makes the whole file unreadable. -/
theorem C108_free_fails_spot : (Verif.Phenom.read env false (file 4 ⟨[imageA], [.spot commonA 1 2], []⟩)).map List.length = .error .keyError := by
  decide +kernel

/-- An MSA analysis that belongs to no picture is read but not returned. -/
theorem C108_free_fails_lost : (Verif.Phenom.read env false (file 4 ⟨[⟨[1], [66], []⟩], [.msa commonA], []⟩)).map (fun l => l.map Sig.title) = .ok ["B".toList] := by
  decide +kernel

/-- A date without a time makes the whole file unreadable. -/
theorem C108_date_fails_short : (Verif.Phenom.read env false (file 4 ⟨[⟨[3], [66], []⟩], [], []⟩)).map List.length = .error .indexError := by
  decide +kernel

/-- The metadata of a signal. -/
def at_ (p : List String) (s : Sig) : Option (Option Text) := (Spec.Phenom.look p s.original).map fun j => match j with
  | .str t => some t
  | _ => none

/-- The metadata of an MSA analysis has lost the acquisition of the picture; other metadata is there. -/
theorem C109_msa_fails_acquisition : (Verif.Phenom.read env false (file 4 ⟨[⟨[1], [66], [.msa commonA]⟩], [], []⟩)).map
    (fun l => l.map fun s => (at_ ["acquisition", "scan", "highVoltage"] s, at_ ["sample"] s)) =
    .ok [(some (some "15000".toList), some (some "steel".toList)), (none, some (some "steel".toList))] := by decide +kernel

/-- The elements that were identified are lost for line scans and maps. -/
theorem C109_line_fails_elements : (Verif.Phenom.read env false (file 4 ⟨[⟨[1], [66], [.spot commonA 1 2, .line commonA lineA, .map commonA mapA]⟩], [], []⟩)).map
    (fun l => l.map fun s => (Spec.Phenom.look (Spec.Phenom.edsAt ++ ["included_elements"]) s.original).isSome) = .ok [false, true, false, false] := by decide +kernel

/-- Of two elements of the XML with one name only the last is kept. -/
theorem C109_xml_fails_repeated : (Verif.Phenom.read env false (file 4 ⟨[⟨[4], [66], []⟩], [], []⟩)).map (fun l => l.map fun s => at_ ["note"] s) =
    .ok [some (some "second".toList)] := by decide +kernel

/-- Attributes of an element with children are lost. -/
theorem C109_xml_fails_attributes : (Verif.Phenom.read env false (file 4 ⟨[⟨[4], [66], []⟩], [], []⟩)).map
    (fun l => l.map fun s => ((at_ ["acquisition", "scan"] s).isSome, (at_ ["acquisition", "scan", "mode"] s).isSome)) = .ok [(true, false)] := by decide +kernel

end Verif.Props.Phenom
