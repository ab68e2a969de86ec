import Verif.Lemmas.JeolTree
/-! C46: parameter trees of JEOL files. -/
namespace Verif.Props.JeolTree
open Verif Verif.JeolTree

/-- C46: a stored forest of entries, closed by any byte but 1, is returned with its meaning, and the
parser stops behind that byte. Missing from the full claim: names other than ASCII (and the two special
forms of `NameBytes`), entries with the same name in a group, entries below values or limits; the
theorems below show what happens to these. -/
theorem C46_tree_partial {dec : List UInt8 → Option Text} (hdec : Decodes dec) (ts : List Tree)
    (hg : AllGood ts) (hk : (keys ts).Nodup) (m : UInt8) (hm : m ≠ 1) (rest : List UInt8) :
    parseTree dec (encAll ts ++ m :: rest) = .ok (meanings ts, rest) := by
  unfold parseTree
  have hl := marksAll_le ts
  obtain ⟨n, hn⟩ : ∃ n, (encAll ts ++ m :: rest).length + 1 = (n + 1) + marksAll ts := by
    refine ⟨(encAll ts ++ m :: rest).length - marksAll ts, ?_⟩
    rw [List.length_append, List.length_cons]
    omega
  rw [hn, parse_forest hdec ts (n + 1) [] [] [] (m :: rest) hg rfl (by simpa using hk)]
  rw [parse, if_neg hm, if_pos rfl]
  rfl

/-- A file that ends with the tree, without a closing byte, is an error. -/
theorem C46_no_end {dec : List UInt8 → Option Text} (hdec : Decodes dec) (ts : List Tree)
    (hg : AllGood ts) (hk : (keys ts).Nodup) :
    parseTree dec (encAll ts) = .error .indexError := by
  unfold parseTree
  have hl := marksAll_le ts
  obtain ⟨n, hn⟩ : ∃ n, (encAll ts).length + 1 = (n + 1) + marksAll ts :=
    ⟨(encAll ts).length - marksAll ts, by omega⟩
  have := parse_forest hdec ts (n + 1) [] [] [] [] hg rfl (by simpa using hk)
  rw [List.append_nil] at this
  rw [hn, this, parse]

/-- A decoder of ASCII. -/
def asciiDec (bs : List UInt8) : Option Text :=
  if bs.all (· < 128) then some (bs.map fun b => Char.ofNat b.toNat) else none

theorem char_ascii {c : Char} (h : c.toNat < 128) :
    UInt8.ofNat c.toNat < 128 ∧ Char.ofNat (UInt8.ofNat c.toNat).toNat = c := by
  have e : (UInt8.ofNat c.toNat).toNat = c.toNat := by
    rw [UInt8.toNat_ofNat']; exact Nat.mod_eq_of_lt (by omega)
  refine ⟨?_, ?_⟩
  · rw [UInt8.lt_iff_toNat_lt, e]; exact h
  · rw [e, Char.ofNat_toNat]

/-- `C46_tree_partial` is about decoders that exist. -/
theorem asciiDec_decodes : Decodes asciiDec := by
  intro t h
  unfold asciiDec ascii
  rw [if_pos]
  · rw [List.map_map]
    congr 1
    conv_rhs => rw [← List.map_id t]
    exact List.map_congr_left fun c hc => (char_ascii (h c hc)).2
  · rw [List.all_eq_true]
    intro b hb
    obtain ⟨c, hc, rfl⟩ := List.mem_map.1 hb
    exact decide_eq_true (char_ascii (h c hc)).1

/-- An entry named by ASCII characters. -/
def entry (name : Text) (c : Content) (below : List Tree) : Tree := .node (ascii name) name c below

/-- A group with a rate that has two numbers below it, a page of a text, limits, a special name. -/
def sample : List Tree :=
  [entry ['E'] .group
      [entry kCountRate (.nums 4 [7]) [entry ['a'] (.nums 2 [1, 2]) []],
       entry ['P', 'A', 'G', 'E', '1'] (.texts 12 [['x']] 3) [entry ['b'] (.texts 12 [['p'], ['q']] 1) []],
       entry kLimits (.nums 9 [1, 2, 3]) [],
       .node [0xce, 0xdf, 0xb0, 0xc4, 0] "Port".toList (.nums 14 [5]) []],
   .node [0x53, 222] ['S'] (.nums 5 [256]) []]

theorem entry_name {name : Text} (h1 : name ≠ []) (h2 : IsAscii name) : NameBytes (ascii name) name :=
  ⟨0, .inl ⟨h1, h2, by simp⟩⟩

theorem isAscii_of {t : Text} (h : t.all fun c => decide (0 < c.toNat ∧ c.toNat < 128)) : IsAscii t := by
  intro c hc
  have := List.all_eq_true.1 h c hc
  exact of_decide_eq_true this

theorem place_group {name : Text} {below : List Tree} (h : name ≠ "Limits".toList) :
    Content.group.Place name below :=
  ⟨fun e => absurd e h, fun e => absurd rfl e, fun e => absurd rfl e⟩

theorem place_leaf {c : Content} {name : Text} (h : ¬ Paged name) : c.Place name [] :=
  ⟨fun _ => rfl, fun _ e => absurd e h, fun _ _ _ _ _ => rfl⟩

theorem place_page {c : Content} {name t : Text} {below : List Tree} (h : name ≠ "Limits".toList)
    (hp : Paged name) (hv : c.value = some (.text t)) : c.Place name below :=
  ⟨fun e => absurd e h, fun _ _ => ⟨t, hv⟩, fun _ e => absurd hp e⟩

theorem place_rate {c : Content} {below : List Tree} : c.Place kCountRate below :=
  ⟨fun e => absurd e (by decide), fun _ e => absurd e (by decide +kernel),
    fun _ _ e => absurd count_eq e⟩

theorem sample_good : AllGood sample ∧ (keys sample).Nodup := by
  refine ⟨?_, by decide +kernel⟩
  have asc : ∀ t : Text, (t.all fun c => decide (0 < c.toNat ∧ c.toNat < 128)) = true → t ≠ [] →
      NameBytes (ascii t) t := fun t h1 h2 => entry_name h2 (isAscii_of h1)
  have ascs : ∀ ts : List Text, (ts.all fun t => t.all fun c => decide (0 < c.toNat ∧ c.toNat < 128)) =
      true → ∀ t ∈ ts, IsAscii t := fun ts h t ht => isAscii_of (List.all_eq_true.1 h t ht)
  simp only [sample, entry, AllGood, Tree.Good, and_true]
  exact ⟨⟨asc _ (by decide) (by decide), trivial, by decide, by decide, place_group (by decide),
      by decide +kernel,
      ⟨asc _ (by decide) (by decide), ⟨4, by decide, by decide⟩, by decide, by decide, place_rate,
        by decide +kernel, asc _ (by decide) (by decide), ⟨2, by decide, by decide⟩, by decide,
        by decide, place_leaf (by decide +kernel), by decide +kernel⟩,
      ⟨asc _ (by decide) (by decide), ⟨by decide, ascs _ (by decide), .inr ⟨['x'], rfl, by decide⟩⟩,
        by decide, by decide, place_page (by decide) (by decide +kernel) rfl, by decide +kernel,
        asc _ (by decide) (by decide),
        ⟨by decide, ascs _ (by decide), .inr ⟨['q'], rfl, by decide⟩⟩,
        by decide, by decide, place_leaf (by decide +kernel), by decide +kernel⟩,
      ⟨asc _ (by decide) (by decide), ⟨4, by decide, by decide⟩, by decide, by decide,
        place_leaf (by decide +kernel), by decide +kernel⟩,
      ⟨⟨1, .inr (.inr ⟨rfl, rfl⟩)⟩, ⟨2, by decide, by decide⟩, by decide, by decide,
        place_leaf (by decide +kernel), by decide +kernel⟩⟩,
    ⟨⟨0, .inr (.inl ⟨isAscii_of (by decide), by decide⟩)⟩, ⟨8, by decide, by decide⟩, by decide,
      by decide, place_leaf (by decide +kernel), by decide +kernel⟩⟩

/-- The theorem applied to the sample; the limits are left out. -/
example : parseTree asciiDec (encAll sample ++ [0, 42]) = .ok
    ([(['E'], .dict [
        (kCountRate, .dict [(kValue, .val (.num 4 7)), (['a'], .val (.nums 2 [1, 2]))]),
        (['P', 'A', 'G', 'E', '1', '_', 'x'], .dict [(['b'], .val (.texts [['p'], ['q']]))]),
        (['P', 'o', 'r', 't'], .dict [(kIndex, .val (.num 14 5))])]),
      (['S'], .val (.num 5 256))], [42]) :=
  C46_tree_partial asciiDec_decodes sample sample_good.1 sample_good.2 0 (by decide) [42]

/-- Violation: of two entries with the same name only the later one is returned. -/
theorem C46_fails_same_name :
    parseTree asciiDec (encAll [entry ['a'] (.nums 2 [1]) [], entry ['a'] (.nums 2 [2]) []] ++ [0]) =
      .ok ([(['a'], .val (.num 2 2))], []) := by rfl

/-- Violation: entries below a value are an error. -/
theorem C46_fails_below_value :
    parseTree asciiDec (encAll [entry ['a'] (.nums 2 [1]) [entry ['b'] .group []]] ++ [0]) =
      .error .typeError := by rfl

/-- Violation: what is below limits is returned beside them. -/
theorem C46_fails_limits :
    parseTree asciiDec (encAll [entry kLimits .group [entry ['b'] (.nums 2 [1]) []]] ++ [0]) =
      .ok ([(kLimits, .dict []), (['b'], .val (.num 2 1))], []) := by rfl

/-- Violation: an empty name is an error. -/
theorem C46_fails_empty_name :
    parseTree asciiDec (encAll [entry [] .group []] ++ [0]) = .error .indexError := by rfl

/-- Violation: a byte that is neither 1 nor -1 within the tree ends it without an error; what follows is
lost. -/
theorem C46_fails_silently :
    parseTree asciiDec ([1, 1, 0, 0, 0, 0x61, 0, 0, 0, 0, 0, 0, 0, 0] ++
        7 :: (encAll [entry ['b'] .group []] ++ [255, 0])) =
      .ok ([(['a'], .dict [])], encAll [entry ['b'] .group []] ++ [255, 0]) := by rfl

/-- Violation: numbers whose length is not a multiple of their size are read partially, and the rest
is taken for the next mark. -/
theorem C46_fails_odd_length :
    parseTree asciiDec ([1, 1, 0, 0, 0, 0x61, 2, 0, 0, 0, 3, 0, 0, 0, 9, 0, 5, 255, 0]) =
      .ok ([(['a'], .val (.num 2 9))], [255, 0]) := by rfl

end Verif.Props.JeolTree
