import Verif.Lemmas.Distributed
/-! Properties C06-C07: chunked loading of memory-mapped data. -/
namespace Verif.Props.Distributed
open Verif Verif.Distributed Verif.DistributedSpec

/-- C06. Whenever the chunk lengths of every axis add up to the shape: every chunk has a box of
slices inside the array with the size of the chunk, and every element of the array lies in the
box of exactly one chunk of the list. -/
theorem C06_tiling (chunks : List (List Nat)) (shape : List Nat)
    (h : chunks.map List.sum = shape) :
    (∀ b, InShape (chunks.map List.length) b → ∃ s, chunkSlices chunks b = .ok s ∧
      .ok s ∈ getChunkSlice chunks ∧ s.length = shape.length ∧
      ∀ (k : Nat) (p : Nat × Nat), s[k]? = some p → ∃ n ch i, shape[k]? = some n ∧ chunks[k]? = some ch ∧
        b[k]? = some i ∧ p.1 ≤ p.2 ∧ p.2 ≤ n ∧ ch[i]? = some (p.2 - p.1)) ∧
    (∀ idx, InShape shape idx →
      ∃! k : Nat, ∃ s, (getChunkSlice chunks)[k]? = some (.ok s) ∧ InBox s idx) := by
  subst h
  constructor
  · intro b hb
    obtain ⟨s, hs, hf⟩ := chunkSlices_ok hb
    obtain ⟨g1, g2⟩ := fits_get hf
    refine ⟨s, hs, ?_, by simpa using g1, ?_⟩
    · unfold getChunkSlice
      rw [List.mem_map]
      exact ⟨b, mem_ndindex.2 hb, hs⟩
    · intro k p hp
      obtain ⟨ch, i, h1, h2, h3, h4, h5⟩ := g2 k p hp
      exact ⟨ch.sum, ch, i, by simp [h1], h1, h2, h3, h4, h5⟩
  · intro idx hidx
    obtain ⟨b, loc, s, h1, h2, h3, _, h5, _, _⟩ := locateAll_ok hidx
    obtain ⟨k, hk⟩ := List.mem_iff_getElem?.1 (mem_ndindex.2 h2)
    refine ⟨k, ⟨s, ?_, h5⟩, ?_⟩
    · unfold getChunkSlice; rw [List.getElem?_map, hk, Option.map_some, h3]
    · rintro k' ⟨s', hs', hb'⟩
      unfold getChunkSlice at hs'
      rw [List.getElem?_map] at hs'
      cases hb2 : (ndindex (chunks.map List.length))[k']? with
      | none => rw [hb2] at hs'; simp at hs'
      | some b2 =>
        rw [hb2] at hs'
        simp only [Option.map_some, Option.some.injEq] at hs'
        obtain ⟨loc', hl'⟩ := inBox_unique hs' hb'
        rw [h1] at hl'
        simp only [Option.some.injEq, Prod.mk.injEq] at hl'
        have hbb : b2 = b := hl'.1.symm
        subst hbb
        obtain ⟨l1, e1⟩ := List.getElem?_eq_some_iff.1 hk
        obtain ⟨l2, e2⟩ := List.getElem?_eq_some_iff.1 hb2
        exact (List.Nodup.getElem_inj_iff (nodup_ndindex _)).1 (e2.trans e1.symm)

/-- C06, loading. The chunk-by-chunk load returns at every index of the array what the whole
memory map holds there, and every block has the shape that was promised to dask. -/
theorem C06_assembles {α : Type} (data : Arr α) (chunks : List (List Nat))
    (h : chunks.map List.sum = data.shape) :
    (∀ idx, InShape data.shape idx → loadElem data chunks idx = .ok (data.val idx)) ∧
    (∀ b s, InShape (chunks.map List.length) b → chunkSlices chunks b = .ok s →
      (sliceMemmap data s).shape = List.zipWith (fun ch i => ch[i]?.getD 0) chunks b) := by
  constructor
  · intro idx hidx
    rw [← h] at hidx
    obtain ⟨b, loc, s, h1, _, h3, h4, _, _, _⟩ := locateAll_ok hidx
    simp only [loadElem, h1, h3, sliceMemmap_eq, sliceArr, h4]
  · intro b s hb hs
    obtain ⟨s', hs', hf⟩ := chunkSlices_ok hb
    rw [hs] at hs'
    injection hs' with e
    subst e
    rw [sliceMemmap_eq, sliceArr_shape data h.symm hf]
    clear hs hb h
    induction chunks generalizing b s with
    | nil => cases b <;> cases s <;> simp_all [Fits]
    | cons ch chs ih =>
      match b, s, hf with
      | i :: is, p :: ps, hf =>
        obtain ⟨⟨_, _, h3⟩, h4⟩ := hf
        simp only [List.map_cons, List.zipWith_cons_cons, ih is ps h4, h3, Option.getD_some]

/-- A 5×3 array in chunks (2,2,1)×(2,1) meets the hypotheses; there are six chunks. -/
example : [[2, 2, 1], [2, 1]].map List.sum = [5, 3] ∧ InShape [5, 3] [4, 2] ∧
    chunkSlices [[2, 2, 1], [2, 1]] [2, 1] = .ok [(4, 5), (2, 3)] ∧
    (getChunkSlice [[2, 2, 1], [2, 1]]).length = 6 := by
  refine ⟨by decide, by simp [InShape], by decide, by decide⟩

/-- C07 (partial). If no chunk of a navigation axis has length one, then the frame loaded at
every navigation index is the last frame recorded there, or a frame of zeros if there is none.
Missing from the full property: chunks of length one, for which it is false
(`C07_fails_for_single_position_chunks`). -/
theorem C07_positions_partial {α : Type} (nav : List Nat) (positions : List (List Int))
    (frames : Nat → α) (zero : α) (chunks : List (List Nat)) (hne : positions ≠ [])
    (hnav : nav ≠ []) (hsum : chunks.map List.sum = nav)
    (hpos : ∀ p ∈ positions, ∃ q, Denotes nav p q)
    (hone : ∀ ch ∈ chunks, ∀ c ∈ ch, c ≠ 1)
    (idx : List Nat) (hidx : InShape nav idx) :
    (∀ k, LastAt nav positions idx k →
      loadFramePos nav positions frames zero chunks idx = .ok (frames k)) ∧
    (Never nav positions idx →
      loadFramePos nav positions frames zero chunks idx = .ok zero) := by
  rw [← hsum] at hidx
  obtain ⟨b, loc, s, h1, _, h3, h4, _, h6, h7⟩ := locateAll_ok hidx
  rw [hsum] at hidx
  obtain ⟨m, hm, hv⟩ := posLoop_spec positions 0 (fun _ => 0) hpos
  have hlen : positions.length ≠ 0 := by simpa using hne
  have hs1 : ∀ n ∈ s.map (fun p => p.2 - p.1), n ≠ 1 := by
    intro n hn
    obtain ⟨p, hp, rfl⟩ := List.mem_map.1 hn
    obtain ⟨k, hk⟩ := List.mem_iff_getElem?.1 hp
    obtain ⟨ch, i, g1, _, _, _, g5⟩ := (fits_get h7).2 k p hk
    exact hone ch (List.mem_of_getElem? g1) _ (List.mem_of_getElem? g5)
  have hs0 : s.map (fun p => p.2 - p.1) ≠ [] := by
    intro hs
    have hs' : s = [] := by simpa using hs
    have hl := (fits_get h7).1
    rw [hs'] at hl
    have : nav.length = 0 := by rw [← hsum]; simpa using hl.symm
    exact hnav (by simpa using this)
  have hload : loadFramePos nav positions frames zero chunks idx =
      .ok (if ((m idx : Int) - 1) = -1 then zero else frames ((m idx : Int) - 1).toNat) := by
    unfold loadFramePos loadBlockPos posMapping
    rw [h1]
    simp only [h3, hm]
    unfold sliceMemmapPos
    rw [if_neg hlen]
    have hsq := squeeze_id (blockOf (fun x => (m x : Int) - 1) s) hs1 loc h6
    have hsh : (blockOf (fun x => (m x : Int) - 1) s).shape = s.map (fun p => p.2 - p.1) := rfl
    simp only [hsq.1, hsh, hs0, if_false, if_true, hsq.2]
    simp only [blockOf, h4]
  rw [hload]
  constructor
  · intro k hk
    have := (hv idx).1 k hk
    rw [this]
    have e1 : ((0 + k + 1 : Nat) : Int) - 1 ≠ -1 := by omega
    have e2 : (((0 + k + 1 : Nat) : Int) - 1).toNat = k := by omega
    rw [if_neg e1, e2]
  · intro hn
    have := (hv idx).2 hn
    rw [this]
    simp

/-- Non-trivial case: a 2×2 scan in one chunk, five frames, position (0,0) visited twice and
(1,1) never. -/
example : ([[2], [2]] : List (List Nat)).map List.sum = [2, 2] ∧
    loadFramePos [2, 2] [[0, 0], [0, 1], [-1, 0], [0, 0]] (fun k => k) 99 [[2], [2]] [0, 0] = .ok 3 ∧
    loadFramePos [2, 2] [[0, 0], [0, 1], [-1, 0], [0, 0]] (fun k => k) 99 [[2], [2]] [1, 0] = .ok 2 ∧
    loadFramePos [2, 2] [[0, 0], [0, 1], [-1, 0], [0, 0]] (fun k => k) 99 [[2], [2]] [1, 1] = .ok 99 := by
  decide

/-- C07 does not hold for every chunking: a chunk with one position raises `TypeError`
(`-1 in slices_` on a scalar), and a chunk of length one along one axis yields a block with an
axis missing. -/
theorem C07_fails_for_single_position_chunks :
    loadFramePos [2, 2] [[0, 0], [0, 1], [1, 0], [1, 1]] (fun k => k) 99 [[1, 1], [1, 1]] [0, 0]
      = .error .typeError ∧
    (∃ a, loadBlockPos [2, 2] [[0, 0], [0, 1], [1, 0], [1, 1]] (fun k => k) 99 [[2], [1, 1]] [0, 0]
      = .ok a ∧ a.shape = [2]) :=
  ⟨by decide, _, rfl, by decide⟩

end Verif.Props.Distributed
