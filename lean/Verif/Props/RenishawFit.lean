import Verif.Props.RenishawData
import Verif.Lemmas.HamamatsuImage
/-! C80: uniform signal axes of `.wdf` files. -/
namespace Verif.Props.Renishaw
open Verif.Renishaw Verif.Spec.Renishaw Verif.Lemmas.Renishaw Verif.BytesSpec

/-- C80: with `use_uniform_signal_axis`, whatever the stored values are, the axis is the straight line with the least sum of squared distances from them. -/
theorem C80_best {f : Bytes} {bs : List Block} {hdr xlst data : Bytes} {P cap N type rounds : Nat} {r : Result}
    (h : Wdf f bs) (hr : bs.length < rounds) (hs : Scan bs hdr xlst data P cap N type) (hread : fileReader rounds f false true = some (.ok r)) :
    ∃ s o b, r.axes.getLast? = some s ∧ s.size = P ∧ s.cal = .uniform o b ∧
      ∀ o' b' : Rat, ((List.range P).map fun k => (f32Dec (num xlst (8 + 4 * source xlst P k) 4) - (o + b * (k : Rat))) ^ 2).sum ≤
        ((List.range P).map fun k => (f32Dec (num xlst (8 + 4 * source xlst P k) 4) - (o' + b' * (k : Rat))) ^ 2).sum := by
  obtain ⟨m, og, wm, nav, axes, sig, h1, h2, h3, h4, h5, h6, h7, h8, h9⟩ := scan_read h hr hs hread
  have hlast : r.axes.getLast? = some sig := by
    rw [h8]
    unfold setAxes at h6
    split at h6
    · injection h6 with h6; rw [← h6]; rfl
    · injection h6 with h6; rw [← h6]; rfl
    · split at h6
      · injection h6 with h6; rw [← h6]; rfl
      · cases h6
    · cases h6
  rw [readXlst_raw (has_found h hs.signal (by decide)) hs.signalLen hs.two true] at h7
  injection h7 with h7
  injection h7 with h7 _
  refine ⟨sig, (fitAxis ((signalValues xlst P).map f32Dec)).1, (fitAxis ((signalValues xlst P).map f32Dec)).2, hlast, by rw [← h7], by rw [← h7]; rfl, fun o' b' => ?_⟩
  have hl : ((signalValues xlst P).map f32Dec).length = P := by simp [signalValues]
  have hb := Lemmas.HamamatsuImage.fit_best (d := (signalValues xlst P).map f32Dec) (by rw [hl]; exact hs.two) o' b'
  have e : ∀ a b : Rat, Spec.Hamamatsu.deviation ((signalValues xlst P).map f32Dec) a b =
      ((List.range P).map fun k => (f32Dec (num xlst (8 + 4 * source xlst P k) 4) - (a + b * (k : Rat))) ^ 2).sum := by
    intro a b
    unfold Spec.Hamamatsu.deviation
    congr 1
    apply List.ext_getElem
    · simp [signalValues]
    · intro i h1 h2
      simp [signalValues]
  rw [e, e] at hb
  exact hb

example : Wdf (exSingle.flatMap Block.bytes) exSingle ∧ Scan exSingle (exHdr 2 1 1 1) exXlst (exData 2) 2 1 1 1 ∧
    ∃ r, fileReader 4 (exSingle.flatMap Block.bytes) false true = some (.ok r) := by
  have hs : Scan exSingle (exHdr 2 1 1 1) exXlst (exData 2) 2 1 1 1 := by decide +kernel
  exact ⟨exSingle_wdf, hs, C79_loads_single true exSingle_wdf (by decide) hs (Or.inr rfl) le_rfl (Or.inl rfl) (by decide +kernel) exPlain.2.1⟩

end Verif.Props.Renishaw
