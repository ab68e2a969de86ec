import Verif.Props.HspyFile
import Verif.Props.HspyUpdate
import Verif.Props.HspyOld
import Verif.Props.HierDict
/-! Examples for C129, C130 and C131, and the cases in which they are false. -/
namespace Verif.Props.HspyFails
open Verif Verif.HierDict Verif.HspyFile Verif.HspyOld Verif.HierDictSpec Verif.HspyFileSpec
open Verif.HspyOldSpec (find atPath)
open Verif.Props.HspyFile (toSignal toReturned)

def env : FileEnv where
  toEnv := HierDict.env0
  shape := fun _ => [4]
  visit := id
  version := fun q => decChars q

def gen (title : String) : Text × Val := (t "General", .dict [(t "title", .text (t title))])

/-- A signal with one axis, a model, and metadata with the given items. -/
def sig (md : HspyFile.Dict) : Given where
  package := t "hyperspy"
  packageVersion := t "2.3"
  axes := [[(t "name", .text (t "x")), (t "navigate", .scalar (.bool false))]]
  metadata := md
  originalMetadata := [(t "o", .scalar (.int 5))]
  learningResults := []
  attributes := [(t "_lazy", .scalar (.bool false))]
  models := [(t "m", .dict [(t "p", .scalar (.int 1))])]
  data := 7

/-- What is read from a file with one experiment. -/
def only : Py Loaded → Option Exp
  | .ok ⟨[e], _⟩ => some e
  | _ => none

def save (write : Bool) (s : Given) (prev : Option Group) : Py Group :=
  fileWriter env write none false false none (fun _ _ => true) (toSignal s) prev

def saveRead (s : Given) : Option Exp :=
  match save true s none with
  | .ok f => only (fileReader env false f)
  | .error _ => none

/-- Save, then save again with `write_dataset=False`, and read. -/
def saveUpdate (s s' : Given) : Py Loaded :=
  match save true s none with
  | .error e => .error e
  | .ok f =>
    match save false s' (some f) with
    | .error e => .error e
    | .ok f' => fileReader env false f'

/-- A signal comes back: with its title, and without one. -/
example : (saveRead (sig [gen "a/b"])).map (fun e => (e.metadata, e.data, e.models)) =
    some ([gen "a/b"], 7, [(t "m", .dict [(t "p", .scalar (.int 1))])]) := rfl
example : (saveRead (sig [gen ""])).map (fun e => (e.metadata, e.axes)) =
    some ([gen ""], (sig []).axes) := rfl

theorem plain (k : Text) (h1 : ∀ p ∈ reserved, ¬ p <+: k)
    (h2 : ∀ c ∈ k.take 1, ¬ ('0' ≤ c ∧ c ≤ '9')) : PlainKey k := by
  refine ⟨h1, ?_⟩
  rintro ⟨ds, rest, hne, hd, rfl⟩
  rcases ds with _ | ⟨c, cs⟩
  · exact hne rfl
  · exact h2 c (by simp) (hd c (by simp))

/-- The signal meets the hypotheses of C129. -/
example : Valid env.shape (t "a/b") (sig [gen "a/b"]) where
  axes := rfl
  axis := by
    intro a ha
    simp only [sig, List.mem_cons, List.not_mem_nil, or_false] at ha
    subst ha
    exact ⟨⟨by decide, plain _ (by decide) (by decide), ⟨by decide, by unfold NoNul; decide⟩,
      plain _ (by decide) (by decide), trivial, trivial⟩, by decide⟩
  metadata := by
    refine ⟨by decide, plain _ (by decide) (by decide), ⟨by decide, plain _ (by decide) (by decide),
      ⟨by decide, by unfold NoNul; decide⟩, trivial⟩, trivial⟩
  originalMetadata := ⟨by decide, plain _ (by decide) (by decide), ⟨by decide, by decide⟩, trivial⟩
  learningResults := ⟨by decide, trivial⟩
  attributes := ⟨by decide, plain _ (by decide) (by decide), trivial, trivial⟩
  models := ⟨by decide, plain _ (by decide) (by decide), ⟨by decide,
    plain _ (by decide) (by decide), ⟨by decide, by decide⟩, trivial⟩, trivial⟩
  model := by
    intro m hm
    simp only [sig, List.mem_cons, List.not_mem_nil, or_false] at hm
    subst hm
    exact ⟨_, rfl, by decide⟩
  title := ⟨by decide, _, List.mem_cons_self, List.mem_cons_self⟩

/-- **C129**: the name of the group of an experiment is its title with `-` for `/`, or
`__unnamed__`; it is never empty and never a path. -/
theorem C129_group_name (title : Text) :
    (title ≠ [] → groupName title = title.map fun c => if c = '/' then '-' else c) ∧
    groupName title ≠ [] ∧ '/' ∉ groupName title ∧ groupName [] = "__unnamed__".toList := by
  refine ⟨?_, ?_, ?_, rfl⟩
  · intro h
    cases title with
    | nil => exact absurd rfl h
    | cons c r => rfl
  · cases title with
    | nil => decide
    | cons c r => simp [groupName]
  · cases title with
    | nil => decide
    | cons c r =>
      intro h
      have : '/' ∈ (c :: r).map (fun c => if c = '/' then '-' else c) := h
      obtain ⟨x, _, hx⟩ := List.mem_map.1 this
      by_cases hc : x = '/'
      · rw [if_pos hc] at hx; exact absurd hx (by decide)
      · rw [if_neg hc] at hx; exact hc hx

/-- C129 is false for the title `__unnamed__`: it comes back as the empty text. -/
theorem C129_fails_unnamed :
    (saveRead (sig [gen "__unnamed__"])).map (·.metadata) = some [gen ""] := rfl

/-- The update of the example: the axes and the metadata change, the data stay. -/
example : (only (saveUpdate (sig [gen "s", (t "k", .text (t "old"))])
      { sig [gen "s", (t "k", .text (t "new"))] with
        data := 8
        axes := [[(t "name", .text (t "y")), (t "navigate", .scalar (.bool true))]] })).map
        (fun e => (e.metadata, e.data, e.axes)) =
    some ([(t "k", .text (t "new")), gen "s"], 7,
      [[(t "name", .text (t "y")), (t "navigate", .scalar (.bool true))]]) := rfl

/-- C130 is false for metadata removed before an update with `write_dataset=False`: they are
still in the file. -/
theorem C130_fails_removed :
    (only (saveUpdate (sig [gen "s", (t "k", .text (t "old"))]) (sig [gen "s"]))).map
      (·.metadata) = some [(t "k", .text (t "old")), gen "s"] := rfl

/-- C130 is false for metadata that change their kind: a section replaced by a text is still read
as the old section. -/
theorem C130_fails_changed_kind :
    (only (saveUpdate (sig [gen "s", (t "k", .dict [(t "a", .text (t "old"))])])
      (sig [gen "s", (t "k", .text (t "new"))]))).map (·.metadata) =
      some [(t "k", .dict [(t "a", .text (t "old"))]), gen "s"] := rfl

/-- C130 is false when the title changed: the update goes to a new group, without data, which is
not read. -/
theorem C130_fails_changed_title :
    (only (saveUpdate (sig [gen "s", (t "k", .text (t "old"))])
      (sig [gen "r", (t "k", .text (t "new"))]))).map (·.metadata) =
      some [(t "k", .text (t "old")), gen "s"] := rfl

def txt (s : String) : Val := .text (t s)

/-- An old file: everything is found under its new name. -/
example : upgrade env [1, 0] ⟨[], []⟩
    [(t "name", txt "n"), (t "signal", txt "EELS"), (t "record_by", txt "spectrum"), (t "x", txt "y"),
     (t "TEM", .dict [(t "EELS", .dict [(t "alpha", txt "1")]), (t "exposure", txt "2"),
        (t "tilt_stage", txt "3")]),
     (t "SEM", .dict [(t "EDS", .dict []), (t "tilt_stage", txt "4")])] [] = .ok
    ([(t "x", txt "y"),
      (t "Signal", .dict [(t "signal_type", txt "EELS"), (t "record_by", txt "spectrum")]),
      (t "General", .dict [(t "title", txt "n")]),
      (t "Acquisition_instrument", .dict [
        (t "TEM", .dict [(t "Detector", .dict [(t "alpha", txt "1"), (t "exposure", txt "2")]),
          (t "Stage", .dict [(t "tilt_alpha", txt "3")])]),
        (t "SEM", .dict [(t "Detector", .dict [(t "EDS", .dict [])]),
          (t "Stage", .dict [(t "tilt_alpha", txt "4")])])])], []) := rfl

example : Props.HspyOld.Before12 1 1 ∧ Props.HspyOld.Before11 1 0 := by
  unfold Props.HspyOld.Before12 Props.HspyOld.Before11
  omega

/-- C131 is false for a microscope with EELS settings that already has detectors: they are lost
(and the EELS settings are found under `Detector`, not `Detector.EELS`). -/
theorem C131_fails_detectors_lost :
    upgrade12 [(t "TEM", .dict [(t "Detector", .dict [(t "Camera", txt "c")]),
      (t "EELS", .dict [(t "alpha", txt "1")])])] =
    .ok [(t "Acquisition_instrument",
      .dict [(t "TEM", .dict [(t "Detector", .dict [(t "alpha", txt "1")])])])] := rfl

/-- C131 is false for a microscope with a tilt that already has a section `Stage`, or with an
exposure time that already has a section `Detector.Camera`: their items are lost. -/
theorem C131_fails_sections_replaced :
    upgrade30 [(t "Acquisition_instrument", .dict [(t "TEM", .dict [
      (t "Stage", .dict [(t "x", txt "1")]), (t "tilt_stage", txt "2")])])] =
    .ok [(t "Acquisition_instrument", .dict [(t "TEM", .dict [
      (t "Stage", .dict [(t "tilt_alpha", txt "2")])])])] ∧
    upgrade30 [(t "Acquisition_instrument", .dict [(t "TEM", .dict [
      (t "Detector", .dict [(t "Camera", .dict [(t "name", txt "1")])]), (t "exposure", txt "2")])])] =
    .ok [(t "Acquisition_instrument", .dict [(t "TEM", .dict [
      (t "Detector", .dict [(t "Camera", .dict [(t "exposure", txt "2")])])])])] := ⟨rfl, rfl⟩

/-- C131 is false for a microscope with both `exposure` and `exposure_time`: the first stays under
its old name. -/
theorem C131_fails_two_exposures :
    upgrade30 [(t "Acquisition_instrument", .dict [(t "TEM", .dict [
      (t "exposure", txt "1"), (t "exposure_time", txt "2")])])] =
    .ok [(t "Acquisition_instrument", .dict [(t "TEM", .dict [(t "exposure", txt "1"),
      (t "Detector", .dict [(t "Camera", .dict [(t "exposure", txt "2")])])])])] := rfl

end Verif.Props.HspyFails
