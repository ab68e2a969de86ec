import Verif.Model.Empad
/-! Specification of C87 and C88: EMPAD files. -/
namespace Verif.Spec.Empad
open Verif.Empad

/-- A frame: 128 rows of 128 pixels, and two rows which are no part of the image. -/
def frame (px : List Nat → Nat) (footer : List UInt8) : List UInt8 := (ravel [128, 128] fun rc => leBytes 4 (px rc)).flatten ++ footer

/-- The raw file of a scan: the frames in the order of the scan (the last navigation axis runs fastest), and whatever follows. -/
def rawFile (nav : List Nat) (px : List Nat → List Nat → Nat) (footer : List Nat → List UInt8) (rest : List UInt8) : List UInt8 :=
  (ravel nav fun idx => frame (px idx) (footer idx)).flatten ++ rest

/-- The scan that the XML file describes: a stack, or numbers of columns and rows as entries or in the name of the raw file. -/
inductive Described (om : Om) : List (String × Nat) → Prop
  | series (n : Nat) (raw : Text) : om "root.raw_file.filename" = some raw → om "root.scan_parameters.series_count" = some (decChars n) → Described om [("series_count", n)]
  | entries (x y : Nat) (raw : Text) : om "root.raw_file.filename" = some raw → om "root.scan_parameters.series_count" = none →
      om "root.pix_x" = some (decChars x) → om "root.pix_y" = some (decChars y) → Described om [("scan_y", y), ("scan_x", x)]
  | name (x y : Nat) (p ext : Text) : '.' ∉ p → "scan_".toList <+: p ++ ['_'] →
      om "root.raw_file.filename" = some (p ++ '_' :: 'x' :: (decChars x ++ '_' :: 'y' :: (decChars y ++ '.' :: ext))) →
      om "root.scan_parameters.series_count" = none → om "root.pix_x" = none ∨ om "root.pix_y" = none → Described om [("scan_y", y), ("scan_x", x)]

/-- The calibrations of the XML file can be read. -/
structure Readable (lib : Lib) (om : Om) : Prop where
  pair : ∀ t, om "root.iom_measurements.optics.get_full_scan_field_of_view" = some t → ∃ v, lib.pair t = .ok v
  fov : ∀ t, om "root.iom_measurements.full_scan_field_of_view.x" = some t → ∃ v, lib.num t = .ok v
  factor : ∀ t, om "root.iom_measurements.full_scan_field_of_view.scale_factor" = some t → ∃ v, lib.num t = .ok v ∧ v ≠ 0
  pixel : ∀ t, om "root.iom_measurements.calibrated_pixelsize" = some t → ∃ v, lib.float t = .ok v
  date : ∀ t, om "root.timestamp.isoformat" = some t → ∃ a b, 'T' ∉ a ∧ 'T' ∉ b ∧ t = a ++ 'T' :: b

/-- What the navigation axes of a scan are scaled by: the field of view is as wide as all pixels together. Old files have a field for each axis (the first one belongs to the first axis of the array), newer
ones have one field, for the longer axis. -/
def NavScale (lib : Lib) (om : Om) (y x : Int) (sy sx : Rat × U) : Prop :=
  (∀ t u v, om "root.iom_measurements.optics.get_full_scan_field_of_view" = some t → lib.pair t = .ok (u, v) →
    (∃ p, sy.2 = .metre p ∧ sy.1 * (10 : Rat) ^ p * y = u) ∧ ∃ p, sx.2 = .metre p ∧ sx.1 * (10 : Rat) ^ p * x = v) ∧
  (∀ t s u f, om "root.iom_measurements.optics.get_full_scan_field_of_view" = none → om "root.iom_measurements.full_scan_field_of_view.x" = some t →
    om "root.iom_measurements.full_scan_field_of_view.scale_factor" = some s → lib.num t = .ok u → lib.num s = .ok f →
    sy = sx ∧ ∃ p, sy.2 = .metre p ∧ sy.1 * (10 : Rat) ^ p * (max y x : Int) = u / f) ∧
  (om "root.iom_measurements.optics.get_full_scan_field_of_view" = none →
    om "root.iom_measurements.full_scan_field_of_view.x" = none ∨ om "root.iom_measurements.full_scan_field_of_view.scale_factor" = none →
    sy = (1, .text (some "")) ∧ sx = (1, .text (some "")))

end Verif.Spec.Empad
