import Verif.Lemmas.Fei
/-!
Properties C01-C05: FEI/Thermo Fisher EDS event streams. `m` is the number of values of the
requested unsigned dtype (e.g. 256 for `uint8`).
-/
namespace Verif.Props.Fei
open Verif Verif.Fei Verif.FeiSpec

/-- A stream for a 1×2 map, two frames: frame 0 has events 1,1 then 3; frame 1 has 2, then none. -/
def exStream : List Nat := [1, 1, 65535, 3, 65535, 2, 65535, 65535]

theorem exStream_inRange (first last : Nat) : InRange exStream 1 2 1 first last (4 / 1) := by
  intro f y x _ _ _ _ e he
  unfold eventsOf at he
  cases hh : (pixels exStream)[(f * 1 + y) * 2 + x]? with
  | none => rw [hh] at he; simp at he
  | some l =>
    rw [hh] at he
    have h1 := List.mem_of_getElem? hh
    simp [exStream, pixels] at h1
    rcases h1 with h | h | h | h <;> subst h <;> simp at he <;> omega

/-- C01. In-memory loading returns, at every index, the number of events of that frame, pixel
and energy bin (modulo the dtype); it fails exactly when an event of the requested frames does
not fall in any of the bins, and then with `IndexError`. -/
theorem C01_dense_exact {m : Nat} {stream : List Nat} {ny nx channels last first rebin : Nat}
    (hm : 0 < m) (hny : 0 < ny) (hnx : 0 < nx) (hr : 0 < rebin) (hfl : first ≤ last)
    (hl : 0 < last) :
    (InRange stream ny nx rebin first last (channels / rebin) →
      ∃ a, streamToFrames m stream ny nx channels last first rebin = .ok a ∧
        (a.nf = last - first ∧ a.ny = ny ∧ a.nx = nx ∧ a.nc = channels / rebin) ∧
        ∀ f y x c, f < a.nf → y < a.ny → x < a.nx → c < a.nc →
          a.val f y x c = count stream ny nx rebin (first + f) y x c % m) ∧
    (¬ InRange stream ny nx rebin first last (channels / rebin) →
      streamToFrames m stream ny nx channels last first rebin = .error .indexError) := by
  have h := streamToFrames_spec (channels := channels) (stream := stream) hm hny hnx hr hfl hl
  refine ⟨fun hin => ?_, h.2⟩
  obtain ⟨a, he, g1, g2, g3, g4, hv⟩ := h.1 hin
  refine ⟨a, he, ⟨g1, g2, g3, g4⟩, ?_⟩
  rw [g1, g2, g3, g4]
  exact hv

/-- The hypotheses of `C01_dense_exact` are met by `exStream`, and the result is not trivial. -/
example : (0 < 256 ∧ 0 < 1 ∧ 0 < 2 ∧ (1 : Nat) ≤ 2) ∧ InRange exStream 1 2 1 0 2 (4 / 1) ∧
    count exStream 1 2 1 0 0 0 1 = 2 ∧ count exStream 1 2 1 1 0 0 2 = 1 ∧
    count exStream 1 2 1 1 0 1 2 = 0 :=
  ⟨by decide, exStream_inRange 0 2, by decide, by decide, by decide⟩

/-- C02. Loading with `sum_frames=True` gives the frame sum of loading with
`sum_frames=False`, and fails exactly when the latter fails (modulo the dtype). -/
theorem C02_sum_frames {m : Nat} {stream : List Nat} {ny nx channels last first rebin : Nat}
    (hm : 0 < m) (hny : 0 < ny) (hnx : 0 < nx) (hr : 0 < rebin) (hfl : first ≤ last)
    (hl : 0 < last) :
    (∀ a, streamToFrames m stream ny nx channels last first rebin = .ok a →
      ∃ b, streamToSum m stream ny nx channels last first rebin = .ok b ∧
        (b.ny = a.ny ∧ b.nx = a.nx ∧ b.nc = a.nc) ∧
        ∀ y x c, y < b.ny → x < b.nx → c < b.nc →
          b.val y x c = ((List.range a.nf).map fun f => a.val f y x c).sum % m) ∧
    (∀ e, streamToFrames m stream ny nx channels last first rebin = .error e →
      streamToSum m stream ny nx channels last first rebin = .error e) := by
  have h := streamToFrames_spec (channels := channels) (stream := stream) hm hny hnx hr hfl hl
  have h' := streamToSum_spec (channels := channels) (stream := stream) (first := first) hm hny hnx hr hl
  by_cases hin : InRange stream ny nx rebin first last (channels / rebin)
  · obtain ⟨a, he, g1, g2, g3, g4, hv⟩ := h.1 hin
    obtain ⟨b, he', k2, k3, k4, hv'⟩ := h'.1 hin
    rw [he, he']
    refine ⟨?_, fun e hh => nomatch hh⟩
    intro a' ha
    injection ha with ha
    subst ha
    refine ⟨b, rfl, ⟨k2.trans g2.symm, k3.trans g3.symm, k4.trans g4.symm⟩, ?_⟩
    rw [k2, k3, k4, g1]
    intro y x c hy hx hc
    rw [hv' y x c hy hx hc]
    unfold countSum
    have : ∀ (n : Nat), n ≤ last - first →
        ((List.range n).map fun k => count stream ny nx rebin (first + k) y x c).sum % m =
        ((List.range n).map fun f => a.val f y x c).sum % m := by
      intro n
      induction n with
      | zero => intro _; rfl
      | succ n ih =>
        intro hn
        have ih := ih (by omega)
        simp only [List.range_succ, List.map_append, List.sum_append_nat, List.map_cons,
          List.map_nil, List.sum_cons, List.sum_nil, Nat.add_zero]
        rw [hv n y x c (by omega) hy hx hc, Nat.add_mod, ih, ← Nat.add_mod,
          Nat.add_mod _ (_ % m), Nat.mod_mod, ← Nat.add_mod]
    exact this _ (Nat.le_refl _)
  · rw [h.2 hin, h'.2 hin]
    exact ⟨fun a hh => (nomatch hh), fun e hh => by injection hh with hh; rw [hh]⟩

example : ∃ a, streamToFrames 256 exStream 1 2 4 2 0 1 = .ok a :=
  let ⟨a, h, _⟩ := (C01_dense_exact (m := 256) (channels := 4) (by decide) (by decide) (by decide)
    (by decide) (by decide) (by decide)).1 (exStream_inRange 0 2)
  ⟨a, h⟩

/-- C03. For a non-empty frame range the sparse array holds the event counts; the dense array
holds the same values modulo its dtype; the sparse reader fails exactly when the dense one does. -/
theorem C03_sparse_eq_dense {m : Nat} {stream : List Nat}
    {ny nx channels last first rebin : Nat}
    (hm : 0 < m) (hny : 0 < ny) (hnx : 0 < nx) (hr : 0 < rebin) (hfl : first < last) :
    (∀ a, streamToFrames m stream ny nx channels last first rebin = .ok a →
      ∃ b, sparseFrames stream ny nx channels last first rebin = .ok b ∧
        (b.nf = a.nf ∧ b.ny = a.ny ∧ b.nx = a.nx ∧ b.nc = a.nc) ∧
        ∀ f y x c, f < a.nf → y < a.ny → x < a.nx → c < a.nc →
          b.val f y x c = count stream ny nx rebin (first + f) y x c ∧
          a.val f y x c = b.val f y x c % m) ∧
    (streamToFrames m stream ny nx channels last first rebin = .error .indexError →
      sparseFrames stream ny nx channels last first rebin = .error .valueError) := by
  have h := streamToFrames_spec (channels := channels) (stream := stream) hm hny hnx hr
    (Nat.le_of_lt hfl) (by omega)
  have h' := sparseFrames_spec (channels := channels) (stream := stream) hny hnx hr hfl
  by_cases hin : InRange stream ny nx rebin first last (channels / rebin)
  · obtain ⟨a, he, g1, g2, g3, g4, hv⟩ := h.1 hin
    obtain ⟨b, he', k1, k2, k3, k4, hv'⟩ := h'.1 hin
    rw [he, he']
    refine ⟨?_, fun hh => nomatch hh⟩
    intro a' ha
    injection ha with ha
    subst ha
    refine ⟨b, rfl, ⟨k1.trans g1.symm, k2.trans g2.symm, k3.trans g3.symm, k4.trans g4.symm⟩, ?_⟩
    rw [g1, g2, g3, g4]
    intro f y x c hf hy hx hc
    rw [hv f y x c hf hy hx hc, hv' f y x c hf hy hx hc]
    exact ⟨rfl, rfl⟩
  · rw [h.2 hin, h'.2 hin]
    exact ⟨fun a hh => (nomatch hh), fun _ => rfl⟩

/-- C03, with frame summing. -/
theorem C03_sparse_eq_dense_sum {m : Nat} {stream : List Nat}
    {ny nx channels last first rebin : Nat}
    (hm : 0 < m) (hny : 0 < ny) (hnx : 0 < nx) (hr : 0 < rebin) (hfl : first < last) :
    (∀ a, streamToSum m stream ny nx channels last first rebin = .ok a →
      ∃ b, sparseSum stream ny nx channels last first rebin = .ok b ∧
        (b.ny = a.ny ∧ b.nx = a.nx ∧ b.nc = a.nc) ∧
        ∀ y x c, y < a.ny → x < a.nx → c < a.nc →
          b.val y x c = countSum stream ny nx rebin first last y x c ∧
          a.val y x c = b.val y x c % m) ∧
    (streamToSum m stream ny nx channels last first rebin = .error .indexError →
      sparseSum stream ny nx channels last first rebin = .error .valueError) := by
  have h := streamToSum_spec (channels := channels) (stream := stream) (first := first) hm hny hnx hr
    (show 0 < last by omega)
  have h' := sparseSum_spec (channels := channels) (stream := stream) hny hnx hr hfl
  by_cases hin : InRange stream ny nx rebin first last (channels / rebin)
  · obtain ⟨a, he, g2, g3, g4, hv⟩ := h.1 hin
    obtain ⟨b, he', k2, k3, k4, hv'⟩ := h'.1 hin
    rw [he, he']
    refine ⟨?_, fun hh => nomatch hh⟩
    intro a' ha
    injection ha with ha
    subst ha
    refine ⟨b, rfl, ⟨k2.trans g2.symm, k3.trans g3.symm, k4.trans g4.symm⟩, ?_⟩
    rw [g2, g3, g4]
    intro y x c hy hx hc
    rw [hv y x c hy hx hc, hv' y x c hy hx hc]
    exact ⟨rfl, rfl⟩
  · rw [h.2 hin, h'.2 hin]
    exact ⟨fun a hh => (nomatch hh), fun _ => rfl⟩

example : ∃ a, streamToFrames 256 exStream 1 2 4 2 1 1 = .ok a :=
  let ⟨a, h, _⟩ := (C01_dense_exact (m := 256) (channels := 4) (by decide) (by decide) (by decide)
    (by decide) (by decide) (by decide)).1 (exStream_inRange 1 2)
  ⟨a, h⟩

/-- C03 does not extend to an empty frame range: with `first = last = 0` the sparse reader with
frame summing counts the whole stream where the dense one rejects every event, and with
`first = last = 1` the sparse reader counts the second frame while the dense one returns zeros.
(The range is empty, so the property does not ask anything of it.) -/
theorem C03_empty_range_differs :
    (∃ a, sparseSum exStream 1 2 4 1 1 1 = .ok a ∧ a.val 0 0 2 = 1) ∧
    (∃ a, streamToSum 256 exStream 1 2 4 1 1 1 = .ok a ∧ a.val 0 0 2 = 0) :=
  ⟨⟨_, rfl, by decide⟩, ⟨_, rfl, by decide⟩⟩

/-- C04. If loading all `n` frames succeeds, then loading the frames `[first, last)` succeeds
and returns the corresponding slice. -/
theorem C04_frame_slice {m : Nat} {stream : List Nat} {ny nx channels n last first rebin : Nat}
    (hm : 0 < m) (hny : 0 < ny) (hnx : 0 < nx) (hr : 0 < rebin) (hfl : first ≤ last)
    (hl : 0 < last) (hn : last ≤ n) {full : Img4}
    (hfull : streamToFrames m stream ny nx channels n 0 rebin = .ok full) :
    ∃ a, streamToFrames m stream ny nx channels last first rebin = .ok a ∧
      (a.nf = last - first ∧ a.ny = full.ny ∧ a.nx = full.nx ∧ a.nc = full.nc) ∧
      ∀ f y x c, f < a.nf → y < a.ny → x < a.nx → c < a.nc →
        a.val f y x c = full.val (first + f) y x c := by
  have h := streamToFrames_spec (channels := channels) (stream := stream) (first := 0) hm hny hnx hr
    (Nat.zero_le n) (by omega)
  have h' := streamToFrames_spec (channels := channels) (stream := stream) hm hny hnx hr hfl hl
  by_cases hin : InRange stream ny nx rebin 0 n (channels / rebin)
  · have hin' : InRange stream ny nx rebin first last (channels / rebin) := by
      intro f y x h1 h2
      exact hin f y x (by omega) (by omega)
    obtain ⟨b, he, g1, g2, g3, g4, hv⟩ := h.1 hin
    obtain ⟨a, he', k1, k2, k3, k4, hv'⟩ := h'.1 hin'
    rw [hfull] at he
    injection he with he
    subst he
    refine ⟨a, he', ⟨k1, k2.trans g2.symm, k3.trans g3.symm, k4.trans g4.symm⟩, ?_⟩
    rw [k1, k2, k3, k4]
    intro f y x c hf hy hx hc
    rw [hv' f y x c hf hy hx hc, hv (first + f) y x c (by omega) hy hx hc, Nat.zero_add]
  · rw [h.2 hin] at hfull
    exact nomatch hfull

example : ∃ a, streamToFrames 256 exStream 1 2 4 2 0 1 = .ok a ∧ (1 : Nat) ≤ 2 :=
  ⟨_, rfl, by decide⟩

/-- C05. Writing an array of counts as a stream and loading the stream returns the array.
`flat` is the array in C order, `nf` is 1 for a 3-D array. -/
theorem C05_array_stream_roundtrip {m nf ny nx nc : Nat} {flat : List Nat}
    (hf : 0 < nf) (hny : 0 < ny) (hnx : 0 < nx) (hnc : 0 < nc) (hmax : nc ≤ 65535)
    (hlen : flat.length = nf * ny * nx * nc) (hm : 0 < m) (hval : ∀ v ∈ flat, v < m) :
    ∃ a, streamToFrames m (arrayToStream nc flat) ny nx nc nf 0 1 = .ok a ∧
      (a.nf = nf ∧ a.ny = ny ∧ a.nx = nx ∧ a.nc = nc) ∧
      ∀ f y x c, f < nf → y < ny → x < nx → c < nc →
        flat[((f * ny + y) * nx + x) * nc + c]? = some (a.val f y x c) := by
  have h := (streamToFrames_spec (m := m) (channels := nc) (stream := arrayToStream nc flat)
    (first := 0) (rebin := 1) hm hny hnx Nat.one_pos (Nat.zero_le nf) hf).1
    (arrayToStream_inRange hnc)
  obtain ⟨a, he, g1, g2, g3, g4, hv⟩ := h
  rw [Nat.div_one] at g4 hv
  refine ⟨a, he, ⟨g1, g2, g3, g4⟩, ?_⟩
  intro f y x c hf' hy hx hc
  have hn : 0 < nf * ny * nx := Nat.mul_pos (Nat.mul_pos hf hny) hnx
  have hcnt := arrayToStream_count hnc hmax hn hlen ((f * ny + y) * nx + x) c hc
  have hlt : ((f * ny + y) * nx + x) * nc + c < flat.length := by
    rw [hlen]
    have h1 : f * ny + y < nf * ny := by
      have := Nat.mul_le_mul_right ny (show f + 1 ≤ nf from hf')
      rw [Nat.succ_mul] at this; omega
    have h2 : (f * ny + y) * nx + x < nf * ny * nx := by
      have := Nat.mul_le_mul_right nx (show f * ny + y + 1 ≤ nf * ny from h1)
      rw [Nat.succ_mul] at this; omega
    have := Nat.mul_le_mul_right nc (show (f * ny + y) * nx + x + 1 ≤ nf * ny * nx from h2)
    rw [Nat.succ_mul] at this; omega
  rw [hv f y x c (by omega) hy hx hc]
  unfold count eventsOf
  have e0 : (fun e : Nat => decide (e / 1 = c)) = (fun e => e == c) := by
    funext e; simp [Nat.div_one, BEq.beq]
  rw [Nat.zero_add, e0, ← List.count_eq_countP', hcnt, List.getElem?_eq_getElem hlt,
    Option.getD_some, Nat.mod_eq_of_lt (hval _ (List.getElem_mem hlt))]

example : ([0, 2, 0, 1, 3, 0, 0, 0] : List Nat).length = 2 * 1 * 2 * 2 ∧
    arrayToStream 2 [0, 2, 0, 1, 3, 0, 0, 0] = [1, 1, 65535, 1, 65535, 0, 0, 0, 65535] := by
  decide

end Verif.Props.Fei
