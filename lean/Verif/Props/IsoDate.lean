import Verif.Model.IsoDate
import Verif.Props.DateTime
/-! C173: serial dates and texts of dates. -/
namespace Verif.Props.IsoDate
open Verif Verif.DateTime Verif.IsoDate

/-- The text is a date and time without zone. -/
def Shows (env : Env) (date time : Text) (s : Int) : Prop := env.parse (date ++ ['T'] ++ time) = .ok (s, none)

/-- The names of UTC that are accepted: none at all, the short and the long one. -/
def MeansUtc (z : Option Text) : Prop := z = none ∨ z = some "UTC".toList ∨ z = some "Coordinated Universal Time".toList

/-- Days from 1899-12-30 to a moment, in seconds of UTC. -/
def days (u : Int) : ℚ := (u : ℚ) / 86400

theorem serialOf_zone (s : Int) (z : Zone) : serialOf (s, some z) = days (s - z s) := by
  unfold serialOf days
  exact DateTime.serial_eq _ _

theorem serialOf_plain (s : Int) : serialOf (s, none) = days s := by
  unfold serialOf days
  exact DateTime.serial_eq _ _

/-- C173: a date and time in UTC, if the names of time zones can be found. -/
theorem C173_utc {env : Env} {date time : Text} {z : Option Text} {s : Int} {u : Zone} (hz : MeansUtc z) (h : Shows env date time s)
    (hu : env.gettz "UTC".toList = some u) (h0 : ∀ t, u t = 0) : isoToSerial env date time z = .ok (days s) := by
  have hn : zoneName z = "UTC".toList := by
    rcases hz with rfl | rfl | rfl
    · rfl
    · rfl
    · rfl
  unfold isoToSerial
  rw [hn, h]
  show (match env.gettz "UTC".toList, (none : Option Zone) with
    | none, none => _
    | some z, _ => _
    | none, some _ => _) = _
  rw [hu]
  show Except.ok (serialOf (s, some u)) = _
  rw [serialOf_zone, h0, Int.sub_zero]

/-- C173: a zone with a known name. -/
theorem C173_named {env : Env} {date time name : Text} {s : Int} {z : Zone} (hn : name ≠ "Coordinated Universal Time".toList)
    (h : Shows env date time s) (hz : env.gettz name = some z) : isoToSerial env date time (some name) = .ok (days (s - z s)) := by
  have e : zoneName (some name) = name := if_neg hn
  unfold isoToSerial
  rw [e, h]
  show (match env.gettz name, (none : Option Zone) with
    | none, none => _
    | some z, _ => _
    | none, some _ => _) = _
  rw [hz]
  show Except.ok (serialOf (s, some z)) = _
  rw [serialOf_zone]

/-- C173: a zone that is not a name, such as `-05:00`, and that the parser understands after the time. -/
theorem C173_offset_partial {env : Env} {date time zone : Text} {s off : Int} (hn : zone ≠ "Coordinated Universal Time".toList)
    (h : Shows env date time s) (hz : env.gettz zone = none) (hp : env.parse (date ++ ['T'] ++ time ++ zone) = .ok (s, some fun _ => off)) :
    isoToSerial env date time (some zone) = .ok (days (s - off)) := by
  have e : zoneName (some zone) = zone := if_neg hn
  unfold isoToSerial
  rw [e, h]
  show (match env.gettz zone, (none : Option Zone) with
    | none, none => _
    | some z, _ => _
    | none, some _ => _) = _
  rw [hz]
  show (env.parse (date ++ ['T'] ++ time ++ zone) >>= fun dt => Except.ok (serialOf dt)) = _
  rw [hp]
  show Except.ok (serialOf (s, some fun _ => off)) = _
  rw [serialOf_zone]

/-- C173: a time with its own zone, if the zone that is given beside it is not known. -/
theorem C173_own {env : Env} {date time name : Text} {s : Int} {own : Zone} (hn : name ≠ "Coordinated Universal Time".toList)
    (h : env.parse (date ++ ['T'] ++ time) = .ok (s, some own)) (hz : env.gettz name = none) :
    isoToSerial env date time (some name) = .ok (days (s - own s)) := by
  have e : zoneName (some name) = name := if_neg hn
  unfold isoToSerial
  rw [e, h]
  show (match env.gettz name, some own with
    | none, none => _
    | some z, _ => _
    | none, some _ => _) = _
  rw [hz]
  show Except.ok (serialOf (s, some own)) = _
  rw [serialOf_zone]

/-- C173: a text that is no date is refused. -/
theorem C173_rejects {env : Env} {date time : Text} {z : Option Text} {e : PyErr} (h : env.parse (date ++ ['T'] ++ time) = .error e) :
    isoToSerial env date time z = .error e := by
  unfold isoToSerial
  rw [h]
  rfl

/-- C173: the texts of a serial date show the local time of the moment, from 1899-12-30 on. -/
theorem C173_texts_partial (env : Env) {u : Int} (h : 0 ≤ u) :
    serialToIso env (days u) = (env.dateText (u + env.ahead u), env.timeText (u + env.ahead u), env.name u) := by
  have e : serialToDatetime (days u) = u := by
    have := DateTime.C14_roundtrip_partial u 0 h
    rwa [DateTime.serial_eq] at this
  unfold serialToIso
  rw [e, Int.floor_intCast]

/-- C173: and back, if the name of the local zone can be found and its clocks tell the time. -/
theorem C173_back_partial {env : Env} {u : Int} {z : Zone} (h : 0 ≤ u)
    (hs : Shows env (env.dateText (u + env.ahead u)) (env.timeText (u + env.ahead u)) (u + env.ahead u))
    (hn : env.name u ≠ "Coordinated Universal Time".toList) (hz : env.gettz (env.name u) = some z) (ho : z (u + env.ahead u) = env.ahead u) :
    ∃ d t n, serialToIso env (days u) = (d, t, n) ∧ isoToSerial env d t (some n) = .ok (days u) := by
  refine ⟨_, _, _, C173_texts_partial env h, ?_⟩
  rw [C173_named hn hs hz, ho, Int.add_sub_cancel]

/-! ### Examples -/

/-- A clock that shows seconds as a row of marks; after a plus sign, the zone that is two hours ahead. This is the local zone, called CEST, whose name
may be known. -/
def env0 (summer : Option Zone) : Env where
  parse t :=
    let n : Int := (t.filter (· = 'I')).length
    if '?' ∈ t then .error .valueError
    else if '+' ∈ t then .ok (n, some fun _ => 7200)
    else .ok (n, none)
  gettz t := if t = "UTC".toList then some fun _ => 0 else if t = "CEST".toList then summer else none
  ahead _ := 7200
  name _ := "CEST".toList
  dateText _ := []
  timeText s := List.replicate s.toNat 'I'

/-- Three seconds after the origin in UTC. -/
example : isoToSerial (env0 none) ['I'] ['I', 'I'] none = .ok (days 3) :=
  C173_utc (.inl rfl) (by rfl) rfl (fun _ => rfl)

/-- The same in a zone two hours ahead, by its number. -/
example : isoToSerial (env0 none) ['I'] ['I', 'I'] (some "+02".toList) = .ok (days (3 - 7200)) :=
  C173_offset_partial (by decide) (by rfl) rfl (by rfl)

/-- And by its name. -/
example : isoToSerial (env0 (some fun _ => 7200)) ['I'] ['I', 'I'] (some "CEST".toList) = .ok (days (3 - 7200)) :=
  C173_named (env := env0 (some fun _ => 7200)) (name := "CEST".toList) (s := 3) (z := fun _ => 7200) (by decide) (by rfl) rfl

example : isoToSerial (env0 none) ['I'] "II+02".toList (some "CEST".toList) = .ok (days (3 - 7200)) :=
  C173_own (own := fun _ => 7200) (by decide) (by rfl) rfl

example : isoToSerial (env0 none) ['?'] [] none = .error .valueError := C173_rejects (by rfl)

theorem count_marks (n : Nat) : (List.replicate n 'I').filter (· = 'I') = List.replicate n 'I' := by
  rw [List.filter_eq_self]
  intro c hc
  rw [List.eq_of_mem_replicate hc]
  rfl

theorem shows_marks (summer : Option Zone) {s : Int} (h : 0 ≤ s) : Shows (env0 summer) [] (List.replicate s.toNat 'I') s := by
  unfold Shows env0
  have h1 : '?' ∉ [] ++ ['T'] ++ List.replicate s.toNat 'I' := by
    intro c
    rcases List.mem_cons.1 c with c | c
    · cases c
    · cases List.eq_of_mem_replicate c
  have h2 : '+' ∉ [] ++ ['T'] ++ List.replicate s.toNat 'I' := by
    intro c
    rcases List.mem_cons.1 c with c | c
    · cases c
    · cases List.eq_of_mem_replicate c
  show (if _ then _ else if _ then _ else _) = _
  rw [if_neg h1, if_neg h2]
  show Except.ok ((((List.filter (fun c => decide (c = 'I')) ('T' :: List.replicate s.toNat 'I')).length : Nat) : Int), none) = _
  rw [List.filter_cons_of_neg (by decide), count_marks, List.length_replicate, Int.toNat_of_nonneg h]

/-- Every moment comes back where the name is known. -/
example {u : Int} (h : 0 ≤ u) : ∃ d t n, serialToIso (env0 (some fun _ => 7200)) (days u) = (d, t, n) ∧
    isoToSerial (env0 (some fun _ => 7200)) d t (some n) = .ok (days u) :=
  C173_back_partial (env := env0 (some fun _ => 7200)) (z := fun _ => 7200) h (shows_marks _ (show 0 ≤ u + 7200 by omega)) (by show "CEST".toList ≠ _; decide) rfl rfl

/-- The abbreviations of zones that serial dates are shown with are often not found, and the parser overlooks them: the local time is taken as UTC. -/
theorem C173_fails_abbreviation {env : Env} {date time name : Text} {s : Int} (hn : name ≠ "Coordinated Universal Time".toList) (h : Shows env date time s)
    (hz : env.gettz name = none) (hp : Shows env date (time ++ name) s) : isoToSerial env date time (some name) = .ok (days s) := by
  have e : zoneName (some name) = name := if_neg hn
  unfold isoToSerial
  rw [e, h]
  show (match env.gettz name, (none : Option Zone) with
    | none, none => _
    | some z, _ => _
    | none, some _ => _) = _
  rw [hz]
  show (env.parse (date ++ ['T'] ++ time ++ name) >>= fun dt => Except.ok (serialOf dt)) = _
  unfold Shows at hp
  rw [← List.append_assoc] at hp
  rw [hp]
  show Except.ok (serialOf (s, none)) = _
  rw [serialOf_plain]

/-- Such a local time does not come back: it is two hours late. -/
example : isoToSerial (env0 none) ['I'] ['I', 'I'] (some "CEST".toList) = .ok (days 3) :=
  C173_fails_abbreviation (by decide) (by rfl) rfl (by rfl)

/-- A time that has its own zone loses it when a zone is found, also the one that is meant if none is given. -/
theorem C173_fails_own_zone {env : Env} {date time : Text} {s : Int} {own u : Zone} (h : env.parse (date ++ ['T'] ++ time) = .ok (s, some own))
    (hu : env.gettz "UTC".toList = some u) (h0 : ∀ t, u t = 0) : isoToSerial env date time none = .ok (days s) := by
  unfold isoToSerial
  rw [h]
  show (match env.gettz "UTC".toList, some own with
    | none, none => _
    | some z, _ => _
    | none, some _ => _) = _
  rw [hu]
  show Except.ok (serialOf (s, some u)) = _
  rw [serialOf_zone, h0, Int.sub_zero]

/-- Three seconds after midnight in a zone two hours ahead are taken as three seconds after midnight UTC. -/
example : isoToSerial (env0 none) ['I'] "II+02".toList none = .ok (days 3) :=
  C173_fails_own_zone (own := fun _ => 7200) (by rfl) rfl (fun _ => rfl)

end Verif.Props.IsoDate
