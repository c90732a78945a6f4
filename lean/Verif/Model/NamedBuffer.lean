import Mathlib.Data.Int.Order.Basic

/-!
# Model of the named masks of detectors (`hexrd/core/utils/panel_buffer.py`, `hexrd/core/instrument/detector.py`)

An array is its shape and its entries.
-/
namespace Hexrd.NamedBuffer

/-- A two-dimensional array (panel_buffer.py:97-102). -/
structure Arr where
  rows : ℕ
  cols : ℕ
  at' : ℕ → ℕ → Bool

/-- A bound of a numpy slice of an axis of length `n` (panel_buffer.py:66): negative bounds count from the end, and all are clipped. -/
def bound (n : ℕ) (x : ℤ) : ℕ := if x < 0 then (x + n).toNat else min x.toNat n

/-- `buffer[a0:b0, a1:b1]` (panel_buffer.py:66). -/
def slice (a : Arr) (r c : ℤ × ℤ) : Arr where
  rows := bound a.rows r.2 - bound a.rows r.1
  cols := bound a.cols c.2 - bound a.cols c.1
  at' i j := a.at' (bound a.rows r.1 + i) (bound a.cols c.1 + j)

/-- The parts of a detector that count here: the numbers of rows and columns and the region of interest. -/
structure Panel where
  rows : ℕ
  cols : ℕ
  roi : Option ((ℤ × ℤ) × ℤ × ℤ)

/-- `roi.setter` (detector.py:419-433) for a pair or `None`. -/
def setRoi (p : Panel) (v : Option (ℤ × ℤ)) : Panel :=
  { p with roi := v.map fun s => ((s.1, s.1 + p.rows), (s.2, s.2 + p.cols)) }

/-- `rows.setter` (detector.py:347-350), which leaves the region as it is. -/
def setRows (p : Panel) (n : ℕ) : Panel := { p with rows := n }

/-- `_load_panel_buffer_from_file` (panel_buffer.py:89-102): the files of the package by name; `none` is the exception for an unknown
name. That the array is read once and cannot be written is not modelled. -/
def load (files : String → Option Arr) (name : String) : Option Arr := files name

/-- `panel_buffer_from_str` (panel_buffer.py:49-76): `none` is the exception. -/
def fromStr (files : String → Option Arr) (name : String) (p : Panel) : Option Arr := do
  let buffer ← load files name
  if buffer.rows = p.rows ∧ buffer.cols = p.cols then return buffer
  let roi ← p.roi
  let part := slice buffer roi.1 roi.2
  if part.rows = p.rows ∧ part.cols = p.cols then return part
  none

end Hexrd.NamedBuffer
