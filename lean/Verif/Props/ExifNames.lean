import Verif.Model.ExifNames
import Mathlib.Data.List.Induction
import Mathlib.Data.List.Nodup
/-!
C169: names of the EXIF tags of images.
-/
namespace Verif.Props.ExifNames
open Verif Verif.ExifNames

/-- The numbers and names of the tags of Renishaw. -/
def renishaw : List (Nat × String) := [(65184, "FocalPlaneXYOrigins"), (65185, "FieldOfViewXY"), (65186, "Unknown")]

/-- The name of a tag: that of Renishaw, else that of Pillow. -/
def Named (pillow : Nat → Option Text) (n : Nat) (t : Text) : Prop :=
  (∃ s, (n, s) ∈ renishaw ∧ t = s.toList) ∨ ((∀ s, (n, s) ∉ renishaw) ∧ pillow n = some t)

/-- A tag without a name. -/
def Unnamed (pillow : Nat → Option Text) (n : Nat) : Prop := (∀ s, (n, s) ∉ renishaw) ∧ pillow n = none

/-- A tag that is given under a name: its own, or `unknown` if it has none. -/
def Under (pillow : Nat → Option Text) (n : Nat) (t : Text) : Prop :=
  Named pillow n t ∨ (Unnamed pillow n ∧ t = "unknown".toList)

private theorem label_under (pillow : Nat → Option Text) (n : Nat) (t : Text) : label pillow n = t ↔ Under pillow n t := by
  unfold Under Named Unnamed label nameOf
  by_cases h0 : n = 65184
  · simp [renishaw, h0, eq_comm]
  by_cases h1 : n = 65185
  · simp [renishaw, h1, eq_comm]
  by_cases h2 : n = 65186
  · simp [renishaw, h2, eq_comm]
  · cases hp : pillow n <;> simp [renishaw, h0, h1, h2, eq_comm]

private theorem put_mem {α : Type} (d : List (Text × α)) (k k' : Text) (v w : α) :
    (k', w) ∈ put d k v ↔ (k' = k ∧ w = v) ∨ (k' ≠ k ∧ (k', w) ∈ d) := by
  unfold put
  split
  · rename_i h
    simp only [List.any_eq_true, decide_eq_true_eq] at h
    obtain ⟨e, he, hk⟩ := h
    rw [List.mem_map]
    constructor
    · rintro ⟨e', he', h⟩
      split at h
      · cases h
        exact .inl ⟨rfl, rfl⟩
      · subst h
        exact .inr ⟨by assumption, he'⟩
    · rintro (⟨rfl, rfl⟩ | ⟨h1, h2⟩)
      · exact ⟨e, he, if_pos hk⟩
      · exact ⟨(k', w), h2, if_neg h1⟩
  · rename_i h
    simp only [List.any_eq_true, decide_eq_true_eq, not_exists, not_and] at h
    rw [List.mem_append, List.mem_singleton, Prod.mk.injEq]
    constructor
    · rintro (h1 | h1)
      · exact .inr ⟨h _ h1, h1⟩
      · exact .inl h1
    · rintro (h1 | h1)
      · exact .inr h1
      · exact .inl h1.2

private theorem mem_named {α : Type} (pillow : Nat → Option Text) (l : List (Nat × α)) (t : Text) (w : α) :
    (t, w) ∈ named pillow l ↔ ∃ a n b, l = a ++ (n, w) :: b ∧ Under pillow n t ∧ ∀ e ∈ b, ¬ Under pillow e.1 t := by
  induction l using List.reverseRecOn with
  | nil => simp [named]
  | append_singleton l e ih =>
    have : named pillow (l ++ [e]) = put (named pillow l) (label pillow e.1) e.2 := by simp [named]
    rw [this, put_mem, ih]
    constructor
    · rintro (⟨h1, h2⟩ | ⟨h1, a, n, b, rfl, hu, hb⟩)
      · exact ⟨l, e.1, [], by rw [h2], (label_under _ _ _).1 h1.symm, by simp⟩
      · refine ⟨a, n, b ++ [e], by simp, hu, ?_⟩
        intro e' he'
        rw [List.mem_append, List.mem_singleton] at he'
        rcases he' with he' | rfl
        · exact hb e' he'
        · exact fun h => h1 ((label_under _ _ _).2 h).symm
    · rintro ⟨a, n, b, h, hu, hb⟩
      rcases List.eq_nil_or_concat b with rfl | ⟨b', x, rfl⟩
      · have h' := List.append_inj' h rfl
        obtain ⟨-, h'⟩ := h'
        have h' : e = (n, w) := by simpa using h'
        exact .inl ⟨by rw [h', (label_under _ _ _).2 hu], by rw [h']⟩
      · have h' : l ++ [e] = (a ++ (n, w) :: b') ++ [x] := by simpa using h
        obtain ⟨h1, h2⟩ := List.append_inj' h' rfl
        have h2 : e = x := by simpa using h2
        subst h2
        exact .inr ⟨fun hl => hb e (by simp) ((label_under _ _ _).1 hl.symm), a, n, b', h1, hu,
          fun e' he' => hb e' (by simp [he'])⟩

/-- C169: a tag that has a name is given under this name, just with its value.

The full claim is this for all tags of an image. Missing: tags that have their name in common, and tags without a name, of which one
is kept (`C169_fails_same`, `C169_fails_unknown`). -/
theorem C169_tags_partial {α : Type} (pillow : Nat → Option Text) (full : Option (Option (List (Nat × α)))) (flat : List (Nat × α))
    (l : List (Nat × α)) (hl : full = some (some l) ∨ (full = none ∧ flat = l)) (hd : (l.map Prod.fst).Nodup)
    {n : Nat} {v : α} (hm : (n, v) ∈ l) {t : Text} (ht : Named pillow n t)
    (h1 : ∀ e ∈ l, Named pillow e.1 t → e.1 = n) (hu : t ≠ "unknown".toList) :
    ∃ r, parse pillow full flat = some r ∧ ∀ w, (t, w) ∈ r ↔ w = v := by
  have hr : parse pillow full flat = some (named pillow l) := by
    rcases hl with rfl | ⟨rfl, rfl⟩ <;> rfl
  refine ⟨_, hr, fun w => ?_⟩
  rw [mem_named]
  have hun : ∀ e ∈ l, Under pillow e.1 t → e.1 = n := by
    rintro e he (h | ⟨-, h⟩)
    · exact h1 e he h
    · exact absurd h hu
  constructor
  · rintro ⟨a, m, b, rfl, hm', -⟩
    have e1 : m = n := hun (m, w) (by simp) hm'
    subst e1
    have := List.inj_on_of_nodup_map hd hm (show (m, w) ∈ a ++ (m, w) :: b by simp) rfl
    cases this
    rfl
  · rintro rfl
    obtain ⟨a, b, rfl⟩ := List.append_of_mem hm
    refine ⟨a, n, b, rfl, .inl ht, ?_⟩
    intro e he h
    have := hun e (by simp [he]) h
    simp only [List.map_append, List.map_cons, List.nodup_append, List.nodup_cons] at hd
    exact hd.2.1.1 (List.mem_map.2 ⟨e, he, this⟩)

/-- C169: all that is given are tags of the image under their names. -/
theorem C169_only {α : Type} (pillow : Nat → Option Text) (full : Option (Option (List (Nat × α)))) (flat : List (Nat × α))
    {r : List (Text × α)} (h : parse pillow full flat = some r) :
    ∀ t w, (t, w) ∈ r → ∃ n, ((∃ l, full = some (some l) ∧ (n, w) ∈ l) ∨ (full = none ∧ (n, w) ∈ flat)) ∧
      Under pillow n t := by
  intro t w hw
  rcases full with _ | _ | l
  · cases h
    obtain ⟨a, n, b, rfl, hu, -⟩ := (mem_named _ _ _ _).1 hw
    exact ⟨n, .inr ⟨rfl, by simp⟩, hu⟩
  · cases h
  · cases h
    obtain ⟨a, n, b, rfl, hu, -⟩ := (mem_named _ _ _ _).1 hw
    exact ⟨n, .inl ⟨_, rfl, by simp⟩, hu⟩

/-- C169: an image without tags has none. -/
theorem C169_none {α : Type} (pillow : Nat → Option Text) (flat : List (Nat × α)) :
    parse pillow (some none) flat = none ∧ parse pillow none ([] : List (Nat × α)) = some [] := ⟨rfl, rfl⟩

/-- Two names of Pillow: 0x920B and 0xA20B are both the energy of the flash. -/
def table : Nat → Option Text
  | 0x010E => some "ImageDescription".toList
  | 0x920B => some "FlashEnergy".toList
  | 0xA20B => some "FlashEnergy".toList
  | _ => none

example : ∃ l : List (Nat × Nat), (l.map Prod.fst).Nodup ∧ (0x010E, 5) ∈ l ∧ Named table 0x010E "ImageDescription".toList ∧
    (∀ e ∈ l, Named table e.1 "ImageDescription".toList → e.1 = 0x010E) ∧ (0xFEA1, 7) ∈ l := by
  refine ⟨[(0x010E, 5), (0xFEA1, 7)], by decide, by simp, .inr ⟨by simp [renishaw], rfl⟩, ?_, by simp⟩
  simp only [List.forall_mem_cons, Named, renishaw]
  refine ⟨fun _ => trivial, ?_, by simp⟩
  rintro (⟨s, hs, h⟩ | ⟨h, -⟩)
  · simp at hs
    subst hs
    exact absurd h (by decide)
  · exact absurd (show (65185, "FieldOfViewXY") ∈ _ by simp) (h "FieldOfViewXY")

/-- Of the tags without a name only the value of the last is kept. -/
theorem C169_fails_unknown {α : Type} (pillow : Nat → Option Text) (m n : Nat) (v w : α) (hm : Unnamed pillow m)
    (hn : Unnamed pillow n) : parse pillow (some (some [(m, v), (n, w)])) [] = some [("unknown".toList, w)] := by
  have h1 := (label_under pillow m _).2 (.inr ⟨hm, rfl⟩)
  have h2 := (label_under pillow n _).2 (.inr ⟨hn, rfl⟩)
  simp [parse, named, put, h1, h2]

/-- Of two tags that have their name in common only the value of the last is kept. -/
theorem C169_fails_same : parse table (some (some [(0x920B, 1), (0xA20B, 2)])) [] = some [("FlashEnergy".toList, 2)] := by
  decide +kernel

end Verif.Props.ExifNames
