import Verif.Model.Mrcz
/-!
C103: MRCZ files give back data, axes and metadata.
-/
namespace Verif.Props.Mrcz
open Verif.Mrcz Verif.Distributed

private theorem pop_ok {d : List (String × Val)} {k : String} {v : Val} {rest : List (String × Val)}
    (h : d = (k, v) :: rest) (hr : ∀ kv ∈ rest, kv.1 ≠ k) : pop d k = .ok rest := by
  subst h
  rw [pop, if_neg (by simp)]
  congr 1
  rw [List.filter_cons, if_neg (by simp), List.filter_eq_self]
  intro kv hkv
  simpa using hr kv hkv

private theorem popAll_ok : ∀ (pre : List (String × Val)) (rest : List (String × Val)),
    (pre.map Prod.fst).Nodup → (∀ kv ∈ rest, kv.1 ∉ pre.map Prod.fst) →
    popAll (pre.map Prod.fst) (pre ++ rest) = .ok rest
  | [], rest, _, _ => rfl
  | (k, v) :: pre, rest, hn, hr => by
    rw [List.map_cons, List.nodup_cons] at hn
    have h1 : pop ((k, v) :: (pre ++ rest)) k = .ok (pre ++ rest) := by
      refine pop_ok rfl fun kv hkv e => ?_
      rcases List.mem_append.1 hkv with h | h
      · exact hn.1 (List.mem_map.2 ⟨kv, h, e⟩)
      · exact hr kv h (by simp [e])
    rw [List.map_cons, List.cons_append, popAll, h1]
    exact popAll_ok pre rest hn.2 fun kv hkv => by
      have := hr kv hkv
      rw [List.map_cons, List.mem_cons, not_or] at this
      exact this.2

/-- C103. A three-dimensional signal with axes in nm that is written and read again has its data,
the sizes and scales of its axes, and the entries of its metadata; the first axis is for navigation.

The full claim is for all signals, with the units and offsets of every axis. Missing: signals with
other numbers of axes (`C103_fails_image`), units that differ (`C103_fails_units`), offsets
(`C103_fails_offset`). -/
theorem C103_roundtrip_partial {α : Type} (data : Arr α) (a b c : Axis) (md : List (String × Val))
    (energy gain : Option Val) (hshape : data.shape = [a.size, b.size, c.size])
    (hu : c.units = "nm") (hmd : ∀ kv ∈ md, kv.1 ∉ popFromHeader) :
    ∃ call r, write data [a, b, c] md energy gain = .ok call ∧ call.data = data ∧
      read "c" call.data (header call) = .ok r ∧ r.data = data ∧ r.metadata = md ∧
      r.axes = [⟨a.size, 0, "z", a.scale, 0, "nm", true⟩, ⟨b.size, 1, "y", b.scale, 0, "nm", false⟩,
        ⟨c.size, 2, "x", c.scale, 0, "nm", false⟩] ∧
      (header call).lookup "voltage" = some (energy.getD .none) ∧
      (header call).lookup "gain" = some (gain.getD (.num 1)) := by
  refine ⟨⟨data, md, [a.scale, b.scale, c.scale], c.units, energy.getD .none, 0,
    gain.getD (.num 1)⟩, ⟨data, _, md⟩, rfl, rfl, ?_, rfl, rfl, rfl, rfl, rfl⟩
  have hp : popAll popFromHeader (header (⟨data, md, [a.scale, b.scale, c.scale], c.units,
      energy.getD .none, 0, gain.getD (.num 1)⟩ : Call α)) = .ok md :=
    popAll_ok ([("compressor", .other 0), ("MRCtype", .other 1), ("C3", .num 0), ("dimensions", .other 2),
      ("dtype", .other 3), ("extendedBytes", .other 4), ("gain", gain.getD (.num 1)),
      ("maxImage", .other 5), ("minImage", .other 6), ("meanImage", .other 7), ("metaId", .other 8),
      ("packedBytes", .other 9), ("pixelsize", .sizes [a.scale, b.scale, c.scale]),
      ("pixelunits", .str c.units), ("voltage", energy.getD .none)]) md (by
        show popFromHeader.Nodup
        decide) hmd
  unfold Verif.Mrcz.read
  rw [if_neg (by simp)]
  have h1 : (header (⟨data, md, [a.scale, b.scale, c.scale], c.units,
      energy.getD .none, 0, gain.getD (.num 1)⟩ : Call α)).lookup "pixelsize" =
      some (.sizes [a.scale, b.scale, c.scale]) := rfl
  have h2 : (header (⟨data, md, [a.scale, b.scale, c.scale], c.units,
      energy.getD .none, 0, gain.getD (.num 1)⟩ : Call α)).lookup "pixelunits" = some (.str "nm") := by
    rw [hu]; rfl
  rw [h1, h2]
  simp only [axisOf, hshape, bind, Except.bind, List.getElem?_cons_zero, List.getElem?_cons_succ]
  rw [hp]
  rfl

example : ∃ call r, write (⟨[2, 3, 4], fun i => i⟩ : Arr (List Nat))
      [⟨2, 0, "t", 5, 0, "nm", true⟩, ⟨3, 1, "y", 1 / 2, 0, "nm", false⟩,
        ⟨4, 2, "x", 1 / 4, 0, "nm", false⟩] [("General", .other 42)] (some (.num 300)) none = .ok call ∧
    read "c" call.data (header call) = .ok r ∧ r.metadata = [("General", .other 42)] ∧
    r.axes.map Axis.scale = [5, 1 / 2, 1 / 4] :=
  ⟨_, _, rfl, rfl, rfl, rfl⟩

/-- Other memory maps, and files without the standard fields, are rejected. -/
theorem C103_rejects {α : Type} (data : Arr α) (h : List (String × Val)) :
    (∀ mode, mode ≠ "c" → read mode data h = .error .valueError) ∧
    (∀ k ∈ popFromHeader, h.lookup k = none → ∀ r, read "c" data h ≠ .ok r) := by
  refine ⟨fun mode hm => by unfold Verif.Mrcz.read; rw [if_pos hm], ?_⟩
  intro k hk hn r hr
  have keep : ∀ (d : List (String × Val)) (j k : String), d.lookup k = none →
      (d.filter fun kv => kv.1 ≠ j).lookup k = none := by
    intro d j k hd
    rw [List.lookup_eq_none_iff] at hd ⊢
    intro a ha
    exact hd a (List.mem_filter.1 ha).1
  have key : ∀ (ks : List String) (d : List (String × Val)), k ∈ ks → d.lookup k = none →
      ∃ e, popAll ks d = .error e := by
    intro ks
    induction ks with
    | nil => intro d h; cases h
    | cons j ks ih =>
      intro d hmem hd
      rw [popAll]
      by_cases hj : d.lookup j = none
      · rw [pop, if_pos hj]
        exact ⟨_, rfl⟩
      · rw [pop, if_neg hj]
        rcases List.mem_cons.1 hmem with e | e
        · rw [e] at hd
          exact absurd hd hj
        · exact ih _ e (keep d j k hd)
  obtain ⟨e, he⟩ := key popFromHeader h hk hn
  unfold Verif.Mrcz.read at hr
  rw [if_neg (by simp)] at hr
  split at hr
  · simp only [bind, Except.bind] at hr
    split at hr
    · cases hr
    split at hr
    · cases hr
    split at hr
    · cases hr
    rw [he] at hr
    cases hr
  · cases hr
  · cases hr
  · cases hr

/-- A single image, with two axes, cannot be written. -/
theorem C103_fails_image : write (⟨[3, 4], fun i => i⟩ : Arr (List Nat))
    [⟨3, 0, "y", 1, 0, "nm", false⟩, ⟨4, 1, "x", 1, 0, "nm", false⟩] [] none none =
      .error .indexError := rfl

/-- A time series in seconds comes back in nm. -/
theorem C103_fails_units : ∃ call r, write (⟨[2, 3, 4], fun i => i⟩ : Arr (List Nat))
      [⟨2, 0, "t", 5, 0, "s", true⟩, ⟨3, 1, "y", 1, 0, "nm", false⟩, ⟨4, 2, "x", 1, 0, "nm", false⟩]
      [] none none = .ok call ∧ read "c" call.data (header call) = .ok r ∧
    r.axes.map (fun a => (a.name, a.units)) = [("z", "nm"), ("y", "nm"), ("x", "nm")] :=
  ⟨_, _, rfl, rfl, rfl⟩

/-- Offsets are lost. -/
theorem C103_fails_offset : ∃ call r, write (⟨[2, 3, 4], fun i => i⟩ : Arr (List Nat))
      [⟨2, 0, "z", 5, 7, "nm", true⟩, ⟨3, 1, "y", 1, 7, "nm", false⟩, ⟨4, 2, "x", 1, 7, "nm", false⟩]
      [] none none = .ok call ∧ read "c" call.data (header call) = .ok r ∧
    r.axes.map Axis.offset = [0, 0, 0] :=
  ⟨_, _, rfl, rfl, rfl⟩

end Verif.Props.Mrcz
