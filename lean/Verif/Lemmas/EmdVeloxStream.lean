import Verif.Lemmas.EmdVeloxImage
import Verif.Lemmas.Fei
/-!
Lemmas about `Model/EmdVelox.lean`: spectrum images.
-/
namespace Verif.EmdVelox
open Verif Verif.Spec.EmdVelox Verif.Fei Verif.FeiSpec

/-! ### Adding a stream to an array -/

theorem incr3_lt {m : Nat} {a a' : Img3} {y x c : Nat} (hm : 0 < m) (h : a.incr m y x c = .ok a')
    (ha : ∀ y x c, a.val y x c < m) : ∀ y x c, a'.val y x c < m := by
  unfold Img3.incr at h
  split at h
  · cases h
    intro y' x' c'
    simp only
    split
    · exact Nat.mod_lt _ hm
    · exact ha y' x' c'
  · cases h

theorem incr4_lt {m : Nat} {a a' : Img4} {f y x c : Nat} (hm : 0 < m) (h : a.incr m f y x c = .ok a')
    (ha : ∀ f y x c, a.val f y x c < m) : ∀ f y x c, a'.val f y x c < m := by
  unfold Img4.incr at h
  split at h
  · cases h
    intro f' y' x' c'
    simp only
    split
    · exact Nat.mod_lt _ hm
    · exact ha f' y' x' c'
  · cases h

theorem act3_lt {m S rebin : Nat} (hm : 0 < m) : ∀ (es : List (Nat × Nat)) (a a' : Img3),
    es.foldlM (act3 m S rebin) a = .ok a' → (∀ y x c, a.val y x c < m) → ∀ y x c, a'.val y x c < m
  | [], a, a', h, ha => by
    cases h
    exact ha
  | e :: es, a, a', h, ha => by
    rw [List.foldlM_cons] at h
    cases h1 : act3 m S rebin a e with
    | error er =>
      rw [h1] at h
      cases h
    | ok b =>
      rw [h1] at h
      exact act3_lt hm es b a' h (incr3_lt hm h1 ha)

theorem act4_lt {m S first rebin : Nat} (hm : 0 < m) : ∀ (es : List (Nat × Nat)) (a a' : Img4),
    es.foldlM (act4 m S first rebin) a = .ok a' → (∀ f y x c, a.val f y x c < m) → ∀ f y x c, a'.val f y x c < m
  | [], a, a', h, ha => by
    cases h
    exact ha
  | e :: es, a, a', h, ha => by
    rw [List.foldlM_cons] at h
    cases h1 : act4 m S first rebin a e with
    | error er =>
      rw [h1] at h
      cases h
    | ok b =>
      rw [h1] at h
      exact act4_lt hm es b a' h (incr4_lt hm h1 ha)

theorem fillSum_add {m : Nat} {stream : List Nat} {ny nx nc last first rebin : Nat} (hm : 0 < m)
    (hny : 0 < ny) (hnx : 0 < nx) (hr : 0 < rebin) (hl : 0 < last) {a : Img3} (h1 : a.ny = ny) (h2 : a.nx = nx) (h3 : a.nc = nc)
    (ha : ∀ y x c, a.val y x c < m) (hin : InRange stream ny nx rebin first last nc) :
    ∃ a', fillSum m first last rebin stream 0 0 a = .ok a' ∧ a'.ny = ny ∧ a'.nx = nx ∧ a'.nc = nc ∧
      (∀ y x c, a'.val y x c < m) ∧
      ∀ y x c, y < ny → x < nx → c < nc →
        a'.val y x c = (a.val y x c + countSum stream ny nx rebin first last y x c) % m := by
  have hS0 : 0 < ny * nx := Nat.mul_pos hny hnx
  rw [fillSum_eq hr stream 0 0 a (S := ny * nx) (by rw [h1, h2]) hS0 (by simp) hl]
  simp only [Nat.zero_mul, Nat.zero_add]
  have h := foldlM_act3 (m := m) (rebin := rebin) (ny := ny) (nx := nx) (nc := nc) rfl hS0
    (sel (ny * nx) first last (events 0 stream)) a h1 h2 h3 ha
  rw [if_pos ((inRange_iff hny hnx).1 hin)] at h
  obtain ⟨a', he, g2, g3, g4, hv⟩ := h
  refine ⟨a', he, g2, g3, g4, act3_lt hm _ _ _ he ha, ?_⟩
  intro y x c hy hx hc
  rw [hv y x c hy hx hc, countSum_eq hy hx]

theorem fillFrames_add {m : Nat} {stream : List Nat} {ny nx nc last first rebin : Nat} (hm : 0 < m)
    (hny : 0 < ny) (hnx : 0 < nx) (hr : 0 < rebin) (hfl : first ≤ last) (hl : 0 < last) {a : Img4} (h0 : a.nf = last - first)
    (h1 : a.ny = ny) (h2 : a.nx = nx) (h3 : a.nc = nc)
    (ha : ∀ f y x c, a.val f y x c < m) (hin : InRange stream ny nx rebin first last nc) :
    ∃ a', fillFrames m first last rebin stream 0 0 a = .ok a' ∧ a'.nf = last - first ∧ a'.ny = ny ∧ a'.nx = nx ∧ a'.nc = nc ∧
      (∀ f y x c, a'.val f y x c < m) ∧
      ∀ f y x c, f < last - first → y < ny → x < nx → c < nc →
        a'.val f y x c = (a.val f y x c + count stream ny nx rebin (first + f) y x c) % m := by
  have hS0 : 0 < ny * nx := Nat.mul_pos hny hnx
  rw [fillFrames_eq hr stream 0 0 a (S := ny * nx) (by rw [h1, h2]) hS0 (by simp) hl]
  simp only [Nat.zero_mul, Nat.zero_add]
  have h := foldlM_act4 (m := m) (first := first) (rebin := rebin) (nf := last - first) (ny := ny) (nx := nx) (nc := nc) rfl hS0
    (sel (ny * nx) first last (events 0 stream)) a h0 h1 h2 h3 ha
    (by
      intro q hq
      unfold sel at hq
      simp only [List.mem_filter, decide_eq_true_eq] at hq
      have : first + (last - first) = last := by omega
      rw [this]; exact hq.2)
  rw [if_pos ((inRange_iff hny hnx).1 hin)] at h
  obtain ⟨a', he, g1, g2, g3, g4, hv⟩ := h
  refine ⟨a', he, g1, g2, g3, g4, act4_lt hm _ _ _ he ha, ?_⟩
  intro f y x c hf hy hx hc
  rw [hv f y x c hf hy hx hc, count_eq hy hx (by omega) (by omega)]

/-! ### Arrays of events -/

/-- A scan that can be read. -/
def ScanOk (c : Scan) : Prop := 0 < c.ny ∧ 0 < c.nx ∧ 0 < c.rebin ∧ c.first < c.last

/-- The settings of the reader are those of the scan. -/
def For (cfg : Config) (c : Scan) : Prop := cfg.first = c.first ∧ cfg.rebin = c.rebin

/-- The array has the events of the streams, `g` applied to the numbers; `b` bounds all numbers. -/
def Has (g : Nat → Nat) (b : Option Nat) (sf : Bool) (c : Scan) (ss : List (List Nat)) : Cube → Prop
  | .sum a => sf = true ∧ a.ny = c.ny ∧ a.nx = c.nx ∧ a.nc = c.channels / c.rebin ∧
      (∀ m, b = some m → ∀ y x k, a.val y x k < m) ∧
      ∀ y x k, y < c.ny → x < c.nx → k < c.channels / c.rebin →
        a.val y x k = g (ss.map fun s => countSum s c.ny c.nx c.rebin c.first c.last y x k).sum
  | .frames a => sf = false ∧ a.nf = c.last - c.first ∧ a.ny = c.ny ∧ a.nx = c.nx ∧ a.nc = c.channels / c.rebin ∧
      (∀ m, b = some m → ∀ f y x k, a.val f y x k < m) ∧
      ∀ f y x k, f < c.last - c.first → y < c.ny → x < c.nx → k < c.channels / c.rebin →
        a.val f y x k = g (ss.map fun s => count s c.ny c.nx c.rebin (c.first + f) y x k).sum

section
variable {cfg : Config} {c : Scan} (hc : ScanOk c) (hf : For cfg c)
include hc hf

theorem streamToArray_new {m : Nat} (hm : 0 < m) {s : List Nat}
    (hin : InRange s c.ny c.nx c.rebin c.first c.last (c.channels / c.rebin)) :
    ∃ cube, streamToArray m cfg c.ny c.nx c.channels c.last s none = .ok cube ∧
      Has (· % m) (some m) cfg.sumFrames c [s] cube := by
  obtain ⟨h1, h2, h3, h4⟩ := hc
  obtain ⟨f1, f2⟩ := hf
  unfold streamToArray
  cases hs : cfg.sumFrames
  · obtain ⟨a, e1, e2, e3, e4, e5, e6, e7⟩ := fillFrames_add (stream := s) hm h1 h2 h3 (Nat.le_of_lt h4) (by omega)
      (a := Img4.zeros (c.last - c.first) c.ny c.nx (c.channels / c.rebin)) rfl rfl rfl rfl (by intros; exact hm) hin
    have : streamToFrames m s c.ny c.nx c.channels c.last c.first c.rebin = .ok a := by
      unfold streamToFrames
      rw [if_neg (by omega), if_neg (by omega)]
      exact e1
    rw [if_neg (by simp)]
    simp only [f1, f2, this, bind, Except.bind, pure, Except.pure]
    refine ⟨_, rfl, rfl, e2, e3, e4, e5, fun m' hm' => ?_, ?_⟩
    · cases hm'
      exact e6
    · intro f y x k hf hy hx hk
      rw [e7 f y x k hf hy hx hk]
      simp [Img4.zeros]
  · obtain ⟨a, e1, e3, e4, e5, e6, e7⟩ := fillSum_add (stream := s) (first := c.first) hm h1 h2 h3 (show 0 < c.last by omega)
      (a := Img3.zeros c.ny c.nx (c.channels / c.rebin)) rfl rfl rfl (by intros; exact hm) hin
    have : streamToSum m s c.ny c.nx c.channels c.last c.first c.rebin = .ok a := by
      unfold streamToSum
      rw [if_neg (by omega)]
      exact e1
    rw [if_pos rfl]
    simp only [f1, f2, this, bind, Except.bind, pure, Except.pure]
    refine ⟨_, rfl, rfl, e3, e4, e5, fun m' hm' => ?_, ?_⟩
    · cases hm'
      exact e6
    · intro y x k hy hx hk
      rw [e7 y x k hy hx hk]
      simp [Img3.zeros]

theorem streamToArray_old {m : Nat} (hm : 0 < m) {s : List Nat} {ss : List (List Nat)} {old : Cube}
    (ho : Has (· % m) (some m) cfg.sumFrames c ss old)
    (hin : InRange s c.ny c.nx c.rebin c.first c.last (c.channels / c.rebin)) :
    ∃ cube, streamToArray m cfg c.ny c.nx c.channels c.last s (some old) = .ok cube ∧
      Has (· % m) (some m) cfg.sumFrames c (ss ++ [s]) cube := by
  obtain ⟨h1, h2, h3, h4⟩ := hc
  obtain ⟨f1, f2⟩ := hf
  cases old with
  | sum a =>
    obtain ⟨g0, g1, g2, g3, g4, g5⟩ := ho
    obtain ⟨a', e1, e3, e4, e5, e6, e7⟩ := fillSum_add (stream := s) (first := c.first) hm h1 h2 h3 (show 0 < c.last by omega)
      g1 g2 g3 (g4 m rfl) hin
    unfold streamToArray
    simp only [f1, f2, e1, bind, Except.bind, pure, Except.pure]
    refine ⟨_, rfl, g0, e3, e4, e5, fun m' hm' => ?_, ?_⟩
    · cases hm'
      exact e6
    · intro y x k hy hx hk
      rw [e7 y x k hy hx hk, g5 y x k hy hx hk]
      simp
  | frames a =>
    obtain ⟨g0, g1', g1, g2, g3, g4, g5⟩ := ho
    obtain ⟨a', e1, e2, e3, e4, e5, e6, e7⟩ := fillFrames_add (stream := s) hm h1 h2 h3 (Nat.le_of_lt h4) (by omega)
      g1' g1 g2 g3 (g4 m rfl) hin
    unfold streamToArray
    simp only [f1, f2, e1, bind, Except.bind, pure, Except.pure]
    refine ⟨_, rfl, g0, e2, e3, e4, e5, fun m' hm' => ?_, ?_⟩
    · cases hm'
      exact e6
    · intro f y x k hf hy hx hk
      rw [e7 f y x k hf hy hx hk, g5 f y x k hf hy hx hk]
      simp

theorem streamToSparse_ok {s : List Nat} (hin : InRange s c.ny c.nx c.rebin c.first c.last (c.channels / c.rebin)) :
    ∃ cube, streamToSparse cfg c.ny c.nx c.channels c.last s = .ok cube ∧ Has id none cfg.sumFrames c [s] cube := by
  obtain ⟨h1, h2, h3, h4⟩ := hc
  obtain ⟨f1, f2⟩ := hf
  unfold streamToSparse
  cases hs : cfg.sumFrames
  · obtain ⟨a, e1, e2, e3, e4, e5, e7⟩ := (sparseFrames_spec (channels := c.channels) (stream := s) h1 h2 h3 h4).1 hin
    rw [if_neg (by simp)]
    simp only [f1, f2, e1, bind, Except.bind, pure, Except.pure]
    refine ⟨_, rfl, rfl, e2, e3, e4, e5, ⟨fun m' hm' => (by cases hm'), ?_⟩⟩
    intro f y x k hf hy hx hk
    rw [e7 f y x k hf hy hx hk]
    simp
  · obtain ⟨a, e1, e3, e4, e5, e7⟩ := (sparseSum_spec (channels := c.channels) (stream := s) h1 h2 h3 h4).1 hin
    rw [if_pos rfl]
    simp only [f1, f2, e1, bind, Except.bind, pure, Except.pure]
    refine ⟨_, rfl, rfl, e3, e4, e5, ⟨fun m' hm' => (by cases hm'), ?_⟩⟩
    intro y x k hy hx hk
    rw [e7 y x k hy hx hk]
    simp
end

theorem add_has {sf : Bool} {c : Scan} {ss ts : List (List Nat)} {a b : Cube} (ha : Has id none sf c ss a)
    (hb : Has id none sf c ts b) : Has id none sf c (ss ++ ts) (a.add b) := by
  cases a with
  | sum a =>
    cases b with
    | sum b =>
      obtain ⟨a0, a1, a2, a3, a4, a5⟩ := ha
      obtain ⟨b0, b1, b2, b3, b4, b5⟩ := hb
      refine ⟨a0, a1, a2, a3, (fun _ h => by cases h), ?_⟩
      intro y x k hy hx hk
      simp only [a5 y x k hy hx hk, b5 y x k hy hx hk, id, List.map_append, List.sum_append]
    | frames b =>
      rw [ha.1] at hb
      exact absurd hb.1 (by simp)
  | frames a =>
    cases b with
    | frames b =>
      obtain ⟨a0, a', a1, a2, a3, a4, a5⟩ := ha
      obtain ⟨b0, b', b1, b2, b3, b4, b5⟩ := hb
      refine ⟨a0, a', a1, a2, a3, (fun _ h => by cases h), ?_⟩
      intro f y x k hf hy hx hk
      simp only [a5 f y x k hf hy hx hk, b5 f y x k hf hy hx hk, id, List.map_append, List.sum_append]
    | sum b =>
      rw [ha.1] at hb
      exact absurd hb.1 (by simp)

theorem mod_has {sf : Bool} {c : Scan} {ss : List (List Nat)} {a : Cube} {m : Nat} (ha : Has id none sf c ss a) :
    Has (· % m) none sf c ss (a.mod m) := by
  cases a with
  | sum a =>
    obtain ⟨a0, a1, a2, a3, a4, a5⟩ := ha
    refine ⟨a0, a1, a2, a3, (fun _ h => by cases h), ?_⟩
    intro y x k hy hx hk
    simp only [a5 y x k hy hx hk, id]
  | frames a =>
    obtain ⟨a0, a', a1, a2, a3, a4, a5⟩ := ha
    refine ⟨a0, a', a1, a2, a3, (fun _ h => by cases h), ?_⟩
    intro f y x k hf hy hx hk
    simp only [a5 f y x k hf hy hx hk, id]

theorem has_weaken {g : Nat → Nat} {b : Option Nat} {sf : Bool} {c : Scan} {ss : List (List Nat)} {a : Cube}
    (ha : Has g b sf c ss a) : Has g none sf c ss a := by
  cases a with
  | sum a =>
    obtain ⟨a0, a1, a2, a3, a4, a5⟩ := ha
    exact ⟨a0, a1, a2, a3, (fun _ h => by cases h), a5⟩
  | frames a =>
    obtain ⟨a0, a', a1, a2, a3, a4, a5⟩ := ha
    exact ⟨a0, a', a1, a2, a3, (fun _ h => by cases h), a5⟩

theorem has_shape {g : Nat → Nat} {b : Option Nat} {sf : Bool} {c : Scan} {ss : List (List Nat)} {a : Cube}
    (ha : Has g b sf c ss a) :
    a.shape = (if sf then [] else [c.last - c.first]) ++ [c.ny, c.nx, c.channels / c.rebin] := by
  cases a with
  | sum a =>
    obtain ⟨a0, a1, a2, a3, _, _⟩ := ha
    simp [Cube.shape, a0, a1, a2, a3]
  | frames a =>
    obtain ⟨a0, a', a1, a2, a3, _, _⟩ := ha
    simp [Cube.shape, a0, a', a1, a2, a3]

/-! ### The streams of a file -/

/-- What holds of every array while reading: dense arrays are bounded, lazy ones exact. -/
def Holds (lazy : Bool) (m : Nat) (sf : Bool) (c : Scan) (ss : List (List Nat)) (a : Cube) : Prop :=
  if lazy then Has id none sf c ss a else Has (· % m) (some m) sf c ss a

theorem countFrames_ok {ny nx n : Nat} {data : List Nat} (h : 0 < ny * nx)
    (h1 : (n - 1) * (ny * nx) < data.count 65535) (h2 : data.count 65535 ≤ n * (ny * nx)) :
    countFrames ny nx data = .ok n := by
  unfold countFrames
  rw [if_neg (by omega)]
  congr 1
  have hm : Fei.marker = 65535 := rfl
  rw [hm]
  generalize ny * nx = s at *
  generalize data.count 65535 = k at *
  have hn : 0 < n := by
    rcases Nat.eq_zero_or_pos n with rfl | hn
    · omega
    · exact hn
  obtain ⟨n', rfl⟩ : ∃ n', n = n' + 1 := ⟨n - 1, by omega⟩
  simp only [Nat.add_sub_cancel] at h1
  rw [Nat.add_mul, Nat.one_mul] at h2
  apply Nat.div_eq_of_lt_le
  · rw [Nat.add_mul, Nat.one_mul]
    omega
  · rw [Nat.add_mul, Nat.add_mul, Nat.one_mul]
    omega

/-- What has to hold of a state before a stream is read. -/
structure Ready (env : Env) (st : St) (c : Scan) (dt : Text) (m : Nat) (s : Stream) : Prop where
  spatial : st.spatial = some (c.ny, c.nx)
  frames : (st.last = some c.last ∧ st.number = c.number) ∨
    (st.last = none ∧ (c.last - 1) * (c.ny * c.nx) < s.data.count 65535 ∧ s.data.count 65535 ≤ c.last * (c.ny * c.nx) ∧
      c.number = some c.last)
  type : st.dtype = some dt ∨ (st.dtype = none ∧ look ["StreamEncoding".toList] s.settings = some (.str dt))
  values : env.values dt = .ok m

/-- What has to hold of a stream. -/
def StreamOk (env : Env) (c : Scan) (s : Stream) : Prop :=
  Channels env s c.channels ∧ InRange s.data c.ny c.nx c.rebin c.first c.last (c.channels / c.rebin)

theorem readStream_ok {env : Env} {cfg : Config} {st : St} {s : Stream} {c : Scan} {dt : Text} {m : Nat} (hc : ScanOk c)
    (hf : For cfg c) (hm : 0 < m) (hr : Ready env st c dt m s) (hs : StreamOk env c s) (hd : c.channels % c.rebin = 0) :
    ∃ cube, readStream env cfg st s = .ok ({ st with dtype := some dt, last := some c.last, number := c.number },
        ⟨c.channels, setKw "ImportedDataParameter".toList (parameters c) s.md, cube⟩) ∧
      Holds cfg.lazy m cfg.sumFrames c [s.data] cube := by
  obtain ⟨⟨j, j1, j2⟩, hin⟩ := hs
  have j3 := get_look1 j1
  have hrebin : cfg.rebin ≠ 0 := by
    rw [hf.2]
    exact Nat.pos_iff_ne_zero.1 hc.2.2.1
  have hmod : ¬ c.channels % cfg.rebin ≠ 0 := by
    rw [hf.2]
    simp [hd]
  have htype : streamType st s = .ok dt := by
    unfold streamType
    rcases hr.type with h | ⟨h, h'⟩
    · rw [h]
    · rw [h]
      simp only [get_look1 h', bind, Except.bind, J.text]
  have hlast : lastFrame st c.ny c.nx s = .ok (c.last, c.number) := by
    unfold lastFrame
    rcases hr.frames with ⟨h, h'⟩ | ⟨h, h1, h2, h3⟩
    · rw [h, h']
    · rw [h]
      simp only [countFrames_ok (Nat.mul_pos hc.1 hc.2.1) h1 h2, bind, Except.bind, pure, Except.pure, h3]
  have hpar : (J.dict [("First_frame".toList, .num cfg.first), ("Last_frame".toList, .num c.last),
     ("Number_of_frames".toList, optNum c.number), ("Rebin_energy".toList, .num cfg.rebin),
     ("Number_of_channels".toList, .num c.channels)]) = parameters c := by
    unfold parameters
    rw [hf.1, hf.2]
    cases c.number <;> rfl
  have hcube : ∃ cube, newCube env cfg dt c.ny c.nx c.channels c.last s = .ok cube ∧
      Holds cfg.lazy m cfg.sumFrames c [s.data] cube := by
    unfold newCube
    unfold Holds
    cases cfg.lazy
    · obtain ⟨cube, e1, e2⟩ := streamToArray_new hc hf hm hin
      exact ⟨cube, by simp only [Bool.false_eq_true, if_false, hr.values, bind, Except.bind, e1], e2⟩
    · obtain ⟨cube, e1, e2⟩ := streamToSparse_ok hc hf hin
      exact ⟨cube, by simp only [if_true, e1], e2⟩
  obtain ⟨cube, k1, k2⟩ := hcube
  refine ⟨cube, ?_, k2⟩
  unfold readStream
  simp only [bind, Except.bind, pure, Except.pure, j3, j2, if_neg hrebin, if_neg hmod, htype, hr.spatial, hlast, k1, hpar]

theorem addStreams_ok {env : Env} {cfg : Config} {st : St} {c : Scan} {dt : Text} {m : Nat} (hc : ScanOk c)
    (hf : For cfg c) (hm : 0 < m) (h1 : st.spatial = some (c.ny, c.nx)) (h2 : st.last = some c.last) (h3 : st.dtype = some dt)
    (hv : env.values dt = .ok m) :
    ∀ (l : List Stream) (d : StreamData) (ss : List (List Nat)), d.bins = c.channels →
      (∀ s ∈ l, InRange s.data c.ny c.nx c.rebin c.first c.last (c.channels / c.rebin)) →
      Holds cfg.lazy m cfg.sumFrames c ss d.cube →
      ∃ cube, addStreams env cfg st l d = .ok { d with cube := cube } ∧
        Holds cfg.lazy m cfg.sumFrames c (ss ++ l.map Stream.data) cube
  | [], d, ss, _, _, hh => ⟨d.cube, rfl, by simpa using hh⟩
  | s :: l, d, ss, hb, hin, hh => by
    have hins := hin s (List.mem_cons_self ..)
    have hcube : ∃ cube, moreCube env cfg st c.ny c.nx c.last d s = .ok cube ∧
        Holds cfg.lazy m cfg.sumFrames c (ss ++ [s.data]) cube := by
      unfold moreCube
      rw [hb, h3, Option.getD_some]
      unfold Holds at hh ⊢
      cases hl : cfg.lazy
      · rw [hl] at hh
        obtain ⟨cube, e1, e2⟩ := streamToArray_old hc hf hm hh hins
        exact ⟨cube, by simp only [Bool.false_eq_true, if_false, hv, bind, Except.bind, e1], e2⟩
      · rw [hl] at hh
        obtain ⟨cube, e1, e2⟩ := streamToSparse_ok hc hf hins
        exact ⟨_, by simp only [if_true, e1, bind, Except.bind, pure, Except.pure], add_has hh e2⟩
    obtain ⟨cube, k1, k2⟩ := hcube
    obtain ⟨cube', i1, i2⟩ := addStreams_ok hc hf hm h1 h2 h3 hv l { d with cube := cube } (ss ++ [s.data]) hb
      (fun t ht => hin t (List.mem_cons_of_mem _ ht)) k2
    refine ⟨cube', ?_, by simpa using i2⟩
    simp only [addStreams, h1, h2, Option.getD_some, bind, Except.bind, k1]
    exact i1

theorem eachStream_ok {env : Env} {cfg : Config} {c : Scan} {dt : Text} {m : Nat} (hc : ScanOk c)
    (hf : For cfg c) (hm : 0 < m) (hv : env.values dt = .ok m) (hd : c.channels % c.rebin = 0) :
    ∀ (l : List Stream) (st : St), st.spatial = some (c.ny, c.nx) → st.last = some c.last → st.number = c.number →
      st.dtype = some dt → (∀ s ∈ l, StreamOk env c s) →
      ∃ ds, eachStream env cfg l st = .ok (st, ds) ∧
        List.Forall₂ (fun (s : Stream) (d : StreamData) => d.om = setKw "ImportedDataParameter".toList (parameters c) s.md ∧
          Holds cfg.lazy m cfg.sumFrames c [s.data] d.cube) l ds
  | [], st, _, _, _, _, _ => ⟨[], rfl, List.Forall₂.nil⟩
  | s :: l, st, h1, h2, h3, h4, hs => by
    obtain ⟨cube, e1, e2⟩ := readStream_ok (st := st) (dt := dt) (m := m) hc hf hm
      ⟨h1, Or.inl ⟨h2, h3⟩, Or.inl h4, hv⟩ (hs s (List.mem_cons_self ..)) hd
    have hst : ({ st with dtype := some dt, last := some c.last, number := c.number } : St) = st := by
      rw [← h2, ← h3, ← h4]
    rw [hst] at e1
    obtain ⟨ds, i1, i2⟩ := eachStream_ok hc hf hm hv hd l st h1 h2 h3 h4 fun t ht => hs t (List.mem_cons_of_mem _ ht)
    exact ⟨_, by simp only [eachStream, e1, bind, Except.bind, i1, pure, Except.pure]; rfl, List.Forall₂.cons ⟨rfl, e2⟩ i2⟩

/-- Which streams each array is of. -/
def parts (sumDetectors : Bool) (s : Stream) (l : List Stream) : List (Stream × List (List Nat)) :=
  if sumDetectors then [(s, (s :: l).map Stream.data)] else (s :: l).map fun t => (t, [t.data])

theorem readStreams_ok {env : Env} {cfg : Config} {st : St} {c : Scan} {dt : Text} {m : Nat} {s : Stream} {l : List Stream}
    (hc : ScanOk c) (hf : For cfg c) (hm : 0 < m) (hr : Ready env st c dt m s) (hd : c.channels % c.rebin = 0)
    (hs : StreamOk env c s) (hl : ∀ t ∈ l, InRange t.data c.ny c.nx c.rebin c.first c.last (c.channels / c.rebin))
    (hl' : cfg.sumDetectors = false → ∀ t ∈ l, Channels env t c.channels) :
    ∃ ds, readStreams env cfg st s l = .ok ({ st with dtype := some dt, last := some c.last, number := c.number }, ds) ∧
      List.Forall₂ (fun (p : Stream × List (List Nat)) (d : StreamData) =>
        d.om = setKw "ImportedDataParameter".toList (parameters c) p.1.md ∧
          Has (· % m) none cfg.sumFrames c p.2 d.cube) (parts cfg.sumDetectors s l) ds := by
  have key : ∃ ds, someStreams env cfg st s l =
        .ok ({ st with dtype := some dt, last := some c.last, number := c.number }, ds) ∧
      List.Forall₂ (fun (p : Stream × List (List Nat)) (d : StreamData) =>
        d.om = setKw "ImportedDataParameter".toList (parameters c) p.1.md ∧
          Holds cfg.lazy m cfg.sumFrames c p.2 d.cube) (parts cfg.sumDetectors s l) ds := by
    obtain ⟨cube, e1, e2⟩ := readStream_ok hc hf hm hr hs hd
    unfold someStreams
    cases hsum : cfg.sumDetectors
    · obtain ⟨ds, i1, i2⟩ := eachStream_ok (env := env) (cfg := cfg) (dt := dt) hc hf hm hr.values hd l
        { st with dtype := some dt, last := some c.last, number := c.number } hr.spatial rfl rfl rfl
        (fun t ht => ⟨hl' hsum t ht, hl t ht⟩)
      refine ⟨_, by simp only [Bool.false_eq_true, if_false, eachStream, e1, bind, Except.bind, i1, pure, Except.pure]; rfl, ?_⟩
      unfold parts
      simp only [Bool.false_eq_true, if_false, List.map_cons]
      refine List.Forall₂.cons ⟨rfl, e2⟩ ?_
      rw [List.forall₂_map_left_iff]
      exact i2
    · obtain ⟨cube', i1, i2⟩ := addStreams_ok (env := env) (dt := dt) hc hf hm
        (st := { st with dtype := some dt, last := some c.last, number := c.number }) hr.spatial rfl rfl hr.values l
        ⟨c.channels, setKw "ImportedDataParameter".toList (parameters c) s.md, cube⟩ [s.data] rfl hl e2
      refine ⟨_, by simp only [if_true, e1, bind, Except.bind, i1, pure, Except.pure]; rfl, ?_⟩
      unfold parts
      simp only [if_true, List.map_cons]
      exact List.Forall₂.cons ⟨rfl, i2⟩ List.Forall₂.nil
  obtain ⟨ds, k1, k2⟩ := key
  unfold readStreams
  simp only [k1, bind, Except.bind, pure, Except.pure]
  cases hlz : cfg.lazy
  · simp only [Bool.false_eq_true, if_false]
    refine ⟨ds, rfl, k2.imp fun p d h => ⟨h.1, ?_⟩⟩
    have := h.2
    unfold Holds at this
    rw [hlz] at this
    exact has_weaken this
  · simp only [if_true, Option.getD_some, hr.values]
    refine ⟨_, rfl, ?_⟩
    rw [List.forall₂_map_right_iff]
    refine k2.imp fun p d h => ⟨h.1, ?_⟩
    have := h.2
    unfold Holds at this
    rw [hlz] at this
    exact mod_has this

/-! ### Axes -/

theorem parseFrameTime_ok {env : Env} {om : Dict} {q : ℚ} {n : Nat} (hn : n ≠ 0) (h : Num env om ["Scan", "FrameTime"] q)
    (hk : Known env ['s']) :
    ∃ u r, env.compact ((n : ℚ) / 2 * q) ['s'] = .ok u ∧ env.ratio ['s'] u = .ok r ∧
      parseFrameTime env om n = .ok (.num (q * r), some u) := by
  obtain ⟨j, hj, hf⟩ := h
  obtain ⟨w, h1, h2⟩ := sub_look hj
  have h3 := get_look1 h2
  obtain ⟨u, r, k1, k2⟩ := hk ((n : ℚ) / 2 * q)
  refine ⟨u, r, k1, k2, ?_⟩
  have k3 := convertScale_ok hf k1 k2 hn
  unfold parseFrameTime
  simp only [h1, h3, bind, Except.bind, k3, pure, Except.pure]

theorem streamAxes_ok {env : Env} {cfg : Config} {om : Dict} {c : Scan} {x : MapFacts} (hc : ScanOk c) (hf : For cfg c)
    (h : SaysMap env om cfg.sumFrames x) :
    ∃ axes, streamAxes env cfg om ((if cfg.sumFrames then [] else [c.last - c.first]) ++ [c.ny, c.nx, c.channels / c.rebin]) =
        .ok axes ∧
      ∃ plane, PlaneAxes env x.pix (((if cfg.sumFrames then c.nx else c.ny : Nat) : ℚ) / 2 * x.pix.w) c.ny c.nx
        (if cfg.sumFrames then 0 else 1) true plane ∧
      ∃ t, (if cfg.sumFrames then t = [] else
          ∃ a, TimeAxis env x.time (((c.last - c.first : Nat) : ℚ) / 2 * x.time) (c.last - c.first) a ∧ t = [a]) ∧
        axes = t ++ plane ++ [⟨"X-ray energy".toList, .num (x.off / 1000), .num (x.disp / 1000 * c.rebin),
          c.channels / c.rebin, some "keV".toList, some (if cfg.sumFrames then 2 else 3), false⟩] := by
  obtain ⟨⟨o, ho⟩, ⟨pw, ph, px, py, pu⟩, hu, he, _, ht⟩ := h
  have h1 := detectorInformation_ok ho
  obtain ⟨br, pix, jw, a1, a2, a3, a4, a5, a6⟩ := num_three pw
  obtain ⟨br1, pix1, jh, b1, b2, b3, b4, b5, b6⟩ := num_three ph
  obtain ⟨br2, off, jx, c1, c2, c3, c4, c5, c6⟩ := num_three px
  obtain ⟨br3, off1, jy, d1, d2, d3, d4, d5, d6⟩ := num_three py
  have e1 : br1 = br := by rw [a1] at b1; exact (Except.ok.inj b1).symm
  have e2 : br2 = br := by rw [a1] at c1; exact (Except.ok.inj c1).symm
  have e3 : br3 = br := by rw [a1] at d1; exact (Except.ok.inj d1).symm
  subst e1
  subst e2
  subst e3
  have e4 : pix1 = pix := by rw [a2] at b2; exact (Except.ok.inj b2).symm
  have e5 : off1 = off := by rw [c2] at d2; exact (Except.ok.inj d2).symm
  subst e4
  subst e5
  obtain ⟨w, g1, g2⟩ := sub_look pu
  have e6 : w = br3 := by rw [a1] at g1; exact (Except.ok.inj g1).symm
  subst e6
  have g3 := get_look1 g2
  have h2 := dispersion_ok (rebin := cfg.rebin) he
  rw [hf.2] at h2
  have hx : ['x'] = "x".toList := rfl
  have hy : ['y'] = "y".toList := rfl
  cases hs : cfg.sumFrames
  · obtain ⟨t1, t2⟩ := ht hs
    obtain ⟨u, r, k1, k2⟩ := hu ((c.ny : ℚ) / 2 * x.pix.w)
    have k3 := convertScale_ok a4 k1 k2 (Nat.pos_iff_ne_zero.1 hc.1)
    have k4 := convertUnits_ok (q := x.pix.h) k2
    have k5 := convertUnits_ok (q := x.pix.ox) k2
    have k6 := convertUnits_ok (q := x.pix.oy) k2
    obtain ⟨u', r', m1, m2, m3⟩ := parseFrameTime_ok (n := c.last - c.first) (by have := hc.2.2.2; omega) t1 t2
    refine ⟨_, ?_, _, ⟨u, r, k1, k2, rfl⟩, _, ⟨_, ⟨u', r', m1, m2, rfl⟩, rfl⟩, rfl⟩
    unfold streamAxes
    simp only [Bool.false_eq_true, if_false, h1, a1, a2, c2, g3, J.text, hf.2, h2, a3, b3, b4, hx, hy, c3, c4, d3, d4, bind, Except.bind, hs,
      List.cons_append, List.nil_append, List.getD_cons_succ, List.getD_cons_zero, k3, k4, k5, k6, m3, pure, Except.pure]
  · obtain ⟨u, r, k1, k2⟩ := hu ((c.nx : ℚ) / 2 * x.pix.w)
    have k3 := convertScale_ok a4 k1 k2 (Nat.pos_iff_ne_zero.1 hc.2.1)
    have k4 := convertUnits_ok (q := x.pix.h) k2
    have k5 := convertUnits_ok (q := x.pix.ox) k2
    have k6 := convertUnits_ok (q := x.pix.oy) k2
    refine ⟨_, ?_, _, ⟨u, r, k1, k2, rfl⟩, _, rfl, rfl⟩
    unfold streamAxes
    simp only [if_true, h1, a1, a2, c2, g3, J.text, hf.2, h2, a3, b3, b4, hx, hy, c3, c4, d3, d4, bind, Except.bind, hs,
      List.cons_append, List.nil_append, List.getD_cons_succ, List.getD_cons_zero, k3, k4, k5, k6, pure, Except.pure]

end Verif.EmdVelox
