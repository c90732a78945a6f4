import Verif.Lemmas.AbsCheck
import Verif.Lemmas.SGTable

/-! Certificates for the reflection conditions of the 230 space groups: the conditions, the
phases they make whole on each stratum, and for every condition the position of an operator
that needs it, in both settings. Found outside Lean; `Verif.Lemmas.AbsRun` checks them in the
kernel. -/
namespace Hexrd.SpaceGroup

structure AbsCert where
  A : List Cond
  spans : List (List (List Nat × Nat × Nat))
  wits : List Nat
  witsAlt : List Nat

def abs_1 : AbsCert := ⟨[], [[([0, 0, 0], 0, 0)], [], [], [], [], [], [], [], [], [], [], [], [],
    [], [], [], [], [], [], [], [], [], [], [], [], [], [], []], [], []⟩
def abs_2 : AbsCert := ⟨[], [[([0, 0, 0], 0, 0)], [], [], [], [], [], [], [], [], [], [], [], [],
    [], [], [], [], [], [], [], [], [], [], [], [], [], [], [([], 0, 0)]], [], []⟩
def abs_3 : AbsCert := ⟨[], [[([0, 0, 0], 0, 0)], [], [], [], [], [], [], [], [], [], [], [], [],
    [([0], 0, 0)], [], [], [], [], [], [], [], [], [], [], [], [], [], []], [], []⟩
def abs_4 : AbsCert := ⟨[⟨.ay, ⟨0,1,0⟩, 2⟩], [[([0, 0, 0], 0, 0)], [], [], [], [], [], [], [], [],
    [], [], [], [], [([0], 0, 0), ([12], 0, 0)], [], [], [], [], [], [], [], [], [], [], [], [],
    [], []], [1], []⟩
def abs_5 : AbsCert := ⟨[⟨.full, ⟨1,1,0⟩, 2⟩], [[([0, 0, 0], 0, 0), ([12, 12, 0], 0, 0)], [], [],
    [], [], [], [], [], [], [], [], [], [], [([0], 0, 0), ([12], 0, 0)], [], [], [], [], [], [],
    [], [], [], [], [], [], [], []], [1], []⟩
def abs_6 : AbsCert := ⟨[], [[([0, 0, 0], 0, 0)], [], [([0, 0], 0, 0)], [], [], [], [], [], [], [],
    [], [], [], [], [], [], [], [], [], [], [], [], [], [], [], [], [], []], [], []⟩
def abs_7 : AbsCert := ⟨[⟨.y0, ⟨0,0,1⟩, 2⟩], [[([0, 0, 0], 0, 0)], [], [([0, 0], 0, 0), ([0, 12],
    0, 0)], [], [], [], [], [], [], [], [], [], [], [], [], [], [], [], [], [], [], [], [], [], [],
    [], [], []], [1], []⟩
def abs_8 : AbsCert := ⟨[⟨.full, ⟨1,1,0⟩, 2⟩], [[([0, 0, 0], 0, 0), ([12, 12, 0], 0, 0)], [], [([0,
    0], 0, 0), ([12, 0], 0, 0)], [], [], [], [], [], [], [], [], [], [], [], [], [], [], [], [],
    [], [], [], [], [], [], [], [], []], [1], []⟩
def abs_9 : AbsCert := ⟨[⟨.full, ⟨1,1,0⟩, 2⟩, ⟨.y0, ⟨0,0,1⟩, 2⟩], [[([0, 0, 0], 0, 0), ([12, 12,
    0], 0, 0)], [], [([0, 0], 0, 0), ([12, 0], 0, 0), ([0, 12], 0, 1), ([12, 12], 1, 1)], [], [],
    [], [], [], [], [], [], [], [], [], [], [], [], [], [], [], [], [], [], [], [], [], [], []],
    [1, 2], []⟩
def abs_10 : AbsCert := ⟨[], [[([0, 0, 0], 0, 0)], [], [([0, 0], 0, 0)], [], [], [], [], [], [],
    [], [], [], [], [([0], 0, 0)], [], [], [], [], [], [], [], [], [], [], [], [], [], [([], 0,
    0)]], [], []⟩
def abs_11 : AbsCert := ⟨[⟨.ay, ⟨0,1,0⟩, 2⟩], [[([0, 0, 0], 0, 0)], [], [([0, 0], 0, 0)], [], [],
    [], [], [], [], [], [], [], [], [([0], 0, 0), ([12], 0, 0)], [], [], [], [], [], [], [], [],
    [], [], [], [], [], [([], 0, 0)]], [2], []⟩
def abs_12 : AbsCert := ⟨[⟨.full, ⟨1,1,0⟩, 2⟩], [[([0, 0, 0], 0, 0), ([12, 12, 0], 0, 0)], [],
    [([0, 0], 0, 0), ([12, 0], 0, 0)], [], [], [], [], [], [], [], [], [], [], [([0], 0, 0), ([12],
    0, 0)], [], [], [], [], [], [], [], [], [], [], [], [], [], [([], 0, 0)]], [2], []⟩
def abs_13 : AbsCert := ⟨[⟨.y0, ⟨0,0,1⟩, 2⟩], [[([0, 0, 0], 0, 0)], [], [([0, 0], 0, 0), ([0, 12],
    0, 0)], [], [], [], [], [], [], [], [], [], [], [([0], 0, 0)], [], [], [], [], [], [], [], [],
    [], [], [], [], [], [([], 0, 0)]], [3], []⟩
def abs_14 : AbsCert := ⟨[⟨.y0, ⟨0,0,1⟩, 2⟩, ⟨.ay, ⟨0,1,0⟩, 2⟩], [[([0, 0, 0], 0, 0)], [], [([0,
    0], 0, 0), ([0, 12], 0, 0)], [], [], [], [], [], [], [], [], [], [], [([0], 0, 0), ([12], 0,
    1)], [], [], [], [], [], [], [], [], [], [], [], [], [], [([], 0, 0)]], [3, 2], []⟩
def abs_15 : AbsCert := ⟨[⟨.full, ⟨1,1,0⟩, 2⟩, ⟨.y0, ⟨0,0,1⟩, 2⟩], [[([0, 0, 0], 0, 0), ([12, 12,
    0], 0, 0)], [], [([0, 0], 0, 0), ([12, 0], 0, 0), ([0, 12], 0, 1), ([12, 12], 1, 1)], [], [],
    [], [], [], [], [], [], [], [], [([0], 0, 0), ([12], 0, 0)], [], [], [], [], [], [], [], [],
    [], [], [], [], [], [([], 0, 0)]], [2, 5], []⟩
def abs_16 : AbsCert := ⟨[], [[([0, 0, 0], 0, 0)], [], [], [], [], [], [], [], [], [], [], [],
    [([0], 0, 0)], [([0], 0, 0)], [([0], 0, 0)], [], [], [], [], [], [], [], [], [], [], [], [],
    []], [], []⟩
def abs_17 : AbsCert := ⟨[⟨.az, ⟨0,0,1⟩, 2⟩], [[([0, 0, 0], 0, 0)], [], [], [], [], [], [], [], [],
    [], [], [], [([0], 0, 0)], [([0], 0, 0)], [([0], 0, 0), ([12], 0, 0)], [], [], [], [], [], [],
    [], [], [], [], [], [], []], [1], []⟩
def abs_18 : AbsCert := ⟨[⟨.ax, ⟨1,0,0⟩, 2⟩, ⟨.ay, ⟨0,1,0⟩, 2⟩], [[([0, 0, 0], 0, 0)], [], [], [],
    [], [], [], [], [], [], [], [], [([0], 0, 0), ([12], 0, 0)], [([0], 0, 0), ([12], 0, 1)],
    [([0], 0, 0)], [], [], [], [], [], [], [], [], [], [], [], [], []], [3, 2], []⟩
def abs_19 : AbsCert := ⟨[⟨.ax, ⟨1,0,0⟩, 2⟩, ⟨.ay, ⟨0,1,0⟩, 2⟩, ⟨.az, ⟨0,0,1⟩, 2⟩], [[([0, 0, 0],
    0, 0)], [], [], [], [], [], [], [], [], [], [], [], [([0], 0, 0), ([12], 0, 0)], [([0], 0, 0),
    ([12], 0, 1)], [([0], 0, 0), ([12], 0, 2)], [], [], [], [], [], [], [], [], [], [], [], [],
    []], [3, 2, 1], []⟩
def abs_20 : AbsCert := ⟨[⟨.full, ⟨1,1,0⟩, 2⟩, ⟨.az, ⟨0,0,1⟩, 2⟩], [[([0, 0, 0], 0, 0), ([12, 12,
    0], 0, 0)], [], [], [], [], [], [], [], [], [], [], [], [([0], 0, 0), ([12], 0, 0)], [([0], 0,
    0), ([12], 0, 0)], [([0], 0, 0), ([12], 0, 1)], [], [], [], [], [], [], [], [], [], [], [], [],
    []], [1, 2], []⟩
def abs_21 : AbsCert := ⟨[⟨.full, ⟨1,1,0⟩, 2⟩], [[([0, 0, 0], 0, 0), ([12, 12, 0], 0, 0)], [], [],
    [], [], [], [], [], [], [], [], [], [([0], 0, 0), ([12], 0, 0)], [([0], 0, 0), ([12], 0, 0)],
    [([0], 0, 0)], [], [], [], [], [], [], [], [], [], [], [], [], []], [1], []⟩
def abs_22 : AbsCert := ⟨[⟨.full, ⟨1,1,0⟩, 2⟩, ⟨.full, ⟨0,1,1⟩, 2⟩], [[([0, 0, 0], 0, 0), ([12, 12,
    0], 0, 0), ([0, 12, 12], 0, 1), ([12, 0, 12], 1, 1)], [], [], [], [], [], [], [], [], [], [],
    [], [([0], 0, 0), ([12], 0, 0)], [([0], 0, 0), ([12], 0, 0)], [([0], 0, 0), ([12], 0, 1)], [],
    [], [], [], [], [], [], [], [], [], [], [], []], [5, 1], []⟩
def abs_23 : AbsCert := ⟨[⟨.full, ⟨1,1,1⟩, 2⟩], [[([0, 0, 0], 0, 0), ([12, 12, 12], 0, 0)], [], [],
    [], [], [], [], [], [], [], [], [], [([0], 0, 0), ([12], 0, 0)], [([0], 0, 0), ([12], 0, 0)],
    [([0], 0, 0), ([12], 0, 0)], [], [], [], [], [], [], [], [], [], [], [], [], []], [1], []⟩
def abs_24 : AbsCert := ⟨[⟨.full, ⟨1,1,1⟩, 2⟩, ⟨.ax, ⟨1,0,0⟩, 2⟩, ⟨.ay, ⟨0,1,0⟩, 2⟩, ⟨.az, ⟨0,0,1⟩,
    2⟩], [[([0, 0, 0], 0, 0), ([12, 12, 12], 0, 0)], [], [], [], [], [], [], [], [], [], [], [],
    [([0], 0, 0), ([12], 0, 0)], [([0], 0, 0), ([12], 0, 0)], [([0], 0, 0), ([12], 0, 0)], [], [],
    [], [], [], [], [], [], [], [], [], [], []], [1, 1, 1, 1], []⟩
def abs_25 : AbsCert := ⟨[], [[([0, 0, 0], 0, 0)], [([0, 0], 0, 0)], [([0, 0], 0, 0)], [], [], [],
    [], [], [], [], [], [], [], [], [([0], 0, 0)], [], [], [], [], [], [], [], [], [], [], [], [],
    []], [], []⟩
def abs_26 : AbsCert := ⟨[⟨.y0, ⟨0,0,1⟩, 2⟩, ⟨.az, ⟨0,0,1⟩, 2⟩], [[([0, 0, 0], 0, 0)], [([0, 0], 0,
    0)], [([0, 0], 0, 0), ([0, 12], 0, 0)], [], [], [], [], [], [], [], [], [], [], [], [([0], 0,
    0), ([12], 0, 0)], [], [], [], [], [], [], [], [], [], [], [], [], []], [2, 1], []⟩
def abs_27 : AbsCert := ⟨[⟨.x0, ⟨0,0,1⟩, 2⟩, ⟨.y0, ⟨0,0,1⟩, 2⟩], [[([0, 0, 0], 0, 0)], [([0, 0], 0,
    0), ([0, 12], 0, 0)], [([0, 0], 0, 0), ([0, 12], 0, 1)], [], [], [], [], [], [], [], [], [],
    [], [], [([0], 0, 0), ([12], 0, 0)], [], [], [], [], [], [], [], [], [], [], [], [], []], [3,
    2], []⟩
def abs_28 : AbsCert := ⟨[⟨.y0, ⟨1,0,0⟩, 2⟩], [[([0, 0, 0], 0, 0)], [([0, 0], 0, 0)], [([0, 0], 0,
    0), ([12, 0], 0, 0)], [], [], [], [], [], [], [], [], [], [], [], [([0], 0, 0)], [], [], [],
    [], [], [], [], [], [], [], [], [], []], [2], []⟩
def abs_29 : AbsCert := ⟨[⟨.x0, ⟨0,0,1⟩, 2⟩, ⟨.y0, ⟨1,0,0⟩, 2⟩, ⟨.az, ⟨0,0,1⟩, 2⟩], [[([0, 0, 0],
    0, 0)], [([0, 0], 0, 0), ([0, 12], 0, 0)], [([0, 0], 0, 0), ([12, 0], 0, 1)], [], [], [], [],
    [], [], [], [], [], [], [], [([0], 0, 0), ([12], 0, 0)], [], [], [], [], [], [], [], [], [],
    [], [], [], []], [3, 2, 1], []⟩
def abs_30 : AbsCert := ⟨[⟨.x0, ⟨0,1,1⟩, 2⟩, ⟨.y0, ⟨0,0,1⟩, 2⟩], [[([0, 0, 0], 0, 0)], [([0, 0], 0,
    0), ([12, 12], 0, 0)], [([0, 0], 0, 0), ([0, 12], 0, 1)], [], [], [], [], [], [], [], [], [],
    [], [], [([0], 0, 0), ([12], 0, 0)], [], [], [], [], [], [], [], [], [], [], [], [], []], [3,
    2], []⟩
def abs_31 : AbsCert := ⟨[⟨.y0, ⟨1,0,1⟩, 2⟩, ⟨.az, ⟨0,0,1⟩, 2⟩], [[([0, 0, 0], 0, 0)], [([0, 0], 0,
    0)], [([0, 0], 0, 0), ([12, 12], 0, 0)], [], [], [], [], [], [], [], [], [], [], [], [([0], 0,
    0), ([12], 0, 0)], [], [], [], [], [], [], [], [], [], [], [], [], []], [2, 1], []⟩
def abs_32 : AbsCert := ⟨[⟨.x0, ⟨0,1,0⟩, 2⟩, ⟨.y0, ⟨1,0,0⟩, 2⟩], [[([0, 0, 0], 0, 0)], [([0, 0], 0,
    0), ([12, 0], 0, 0)], [([0, 0], 0, 0), ([12, 0], 0, 1)], [], [], [], [], [], [], [], [], [],
    [], [], [([0], 0, 0)], [], [], [], [], [], [], [], [], [], [], [], [], []], [3, 2], []⟩
def abs_33 : AbsCert := ⟨[⟨.x0, ⟨0,1,1⟩, 2⟩, ⟨.y0, ⟨1,0,0⟩, 2⟩, ⟨.az, ⟨0,0,1⟩, 2⟩], [[([0, 0, 0],
    0, 0)], [([0, 0], 0, 0), ([12, 12], 0, 0)], [([0, 0], 0, 0), ([12, 0], 0, 1)], [], [], [], [],
    [], [], [], [], [], [], [], [([0], 0, 0), ([12], 0, 0)], [], [], [], [], [], [], [], [], [],
    [], [], [], []], [3, 2, 1], []⟩
def abs_34 : AbsCert := ⟨[⟨.x0, ⟨0,1,1⟩, 2⟩, ⟨.y0, ⟨1,0,1⟩, 2⟩], [[([0, 0, 0], 0, 0)], [([0, 0], 0,
    0), ([12, 12], 0, 0)], [([0, 0], 0, 0), ([12, 12], 0, 1)], [], [], [], [], [], [], [], [], [],
    [], [], [([0], 0, 0), ([12], 0, 0)], [], [], [], [], [], [], [], [], [], [], [], [], []], [3,
    2], []⟩
def abs_35 : AbsCert := ⟨[⟨.full, ⟨1,1,0⟩, 2⟩], [[([0, 0, 0], 0, 0), ([12, 12, 0], 0, 0)], [([0,
    0], 0, 0), ([12, 0], 0, 0)], [([0, 0], 0, 0), ([12, 0], 0, 0)], [], [], [], [], [], [], [], [],
    [], [], [], [([0], 0, 0)], [], [], [], [], [], [], [], [], [], [], [], [], []], [1], []⟩
def abs_36 : AbsCert := ⟨[⟨.full, ⟨1,1,0⟩, 2⟩, ⟨.y0, ⟨0,0,1⟩, 2⟩, ⟨.az, ⟨0,0,1⟩, 2⟩], [[([0, 0, 0],
    0, 0), ([12, 12, 0], 0, 0)], [([0, 0], 0, 0), ([12, 0], 0, 0)], [([0, 0], 0, 0), ([12, 0], 0,
    0), ([0, 12], 0, 1), ([12, 12], 1, 1)], [], [], [], [], [], [], [], [], [], [], [], [([0], 0,
    0), ([12], 0, 1)], [], [], [], [], [], [], [], [], [], [], [], [], []], [1, 3, 2], []⟩
def abs_37 : AbsCert := ⟨[⟨.full, ⟨1,1,0⟩, 2⟩, ⟨.x0, ⟨0,0,1⟩, 2⟩, ⟨.y0, ⟨0,0,1⟩, 2⟩], [[([0, 0, 0],
    0, 0), ([12, 12, 0], 0, 0)], [([0, 0], 0, 0), ([12, 0], 0, 0), ([0, 12], 0, 1), ([12, 12], 1,
    1)], [([0, 0], 0, 0), ([12, 0], 0, 0), ([0, 12], 0, 2), ([12, 12], 1, 2)], [], [], [], [], [],
    [], [], [], [], [], [], [([0], 0, 0), ([12], 0, 1)], [], [], [], [], [], [], [], [], [], [],
    [], [], []], [1, 6, 3], []⟩
def abs_38 : AbsCert := ⟨[⟨.full, ⟨0,1,1⟩, 2⟩], [[([0, 0, 0], 0, 0), ([0, 12, 12], 0, 0)], [([0,
    0], 0, 0), ([12, 12], 0, 0)], [([0, 0], 0, 0), ([0, 12], 0, 0)], [], [], [], [], [], [], [],
    [], [], [], [], [([0], 0, 0), ([12], 0, 0)], [], [], [], [], [], [], [], [], [], [], [], [],
    []], [1], []⟩
def abs_39 : AbsCert := ⟨[⟨.full, ⟨0,1,1⟩, 2⟩, ⟨.x0, ⟨0,1,0⟩, 2⟩], [[([0, 0, 0], 0, 0), ([0, 12,
    12], 0, 0)], [([0, 0], 0, 0), ([12, 12], 0, 0), ([12, 0], 0, 1), ([0, 12], 1, 1)], [([0, 0], 0,
    0), ([0, 12], 0, 0)], [], [], [], [], [], [], [], [], [], [], [], [([0], 0, 0), ([12], 0, 0)],
    [], [], [], [], [], [], [], [], [], [], [], [], []], [1, 6], []⟩
def abs_40 : AbsCert := ⟨[⟨.full, ⟨0,1,1⟩, 2⟩, ⟨.y0, ⟨1,0,0⟩, 2⟩], [[([0, 0, 0], 0, 0), ([0, 12,
    12], 0, 0)], [([0, 0], 0, 0), ([12, 12], 0, 0)], [([0, 0], 0, 0), ([0, 12], 0, 0), ([12, 0], 0,
    1), ([12, 12], 1, 1)], [], [], [], [], [], [], [], [], [], [], [], [([0], 0, 0), ([12], 0, 0)],
    [], [], [], [], [], [], [], [], [], [], [], [], []], [1, 3], []⟩
def abs_41 : AbsCert := ⟨[⟨.full, ⟨0,1,1⟩, 2⟩, ⟨.x0, ⟨0,1,0⟩, 2⟩, ⟨.y0, ⟨1,0,0⟩, 2⟩], [[([0, 0, 0],
    0, 0), ([0, 12, 12], 0, 0)], [([0, 0], 0, 0), ([12, 12], 0, 0), ([12, 0], 0, 1), ([0, 12], 1,
    1)], [([0, 0], 0, 0), ([0, 12], 0, 0), ([12, 0], 0, 2), ([12, 12], 1, 2)], [], [], [], [], [],
    [], [], [], [], [], [], [([0], 0, 0), ([12], 0, 0)], [], [], [], [], [], [], [], [], [], [],
    [], [], []], [1, 6, 3], []⟩
def abs_42 : AbsCert := ⟨[⟨.full, ⟨1,1,0⟩, 2⟩, ⟨.full, ⟨0,1,1⟩, 2⟩], [[([0, 0, 0], 0, 0), ([12, 12,
    0], 0, 0), ([0, 12, 12], 0, 1), ([12, 0, 12], 1, 1)], [([0, 0], 0, 0), ([12, 0], 0, 0), ([12,
    12], 0, 1), ([0, 12], 1, 1)], [([0, 0], 0, 0), ([12, 0], 0, 0), ([0, 12], 0, 1), ([12, 12], 1,
    1)], [], [], [], [], [], [], [], [], [], [], [], [([0], 0, 0), ([12], 0, 1)], [], [], [], [],
    [], [], [], [], [], [], [], [], []], [5, 1], []⟩
def abs_43 : AbsCert := ⟨[⟨.full, ⟨1,1,0⟩, 2⟩, ⟨.full, ⟨0,1,1⟩, 2⟩, ⟨.x0, ⟨0,1,1⟩, 4⟩, ⟨.y0,
    ⟨1,0,1⟩, 4⟩], [[([0, 0, 0], 0, 0), ([12, 12, 0], 0, 0), ([0, 12, 12], 0, 1), ([12, 0, 12], 1,
    1)], [([0, 0], 0, 0), ([12, 0], 0, 0), ([12, 12], 0, 1), ([6, 6], 0, 2), ([0, 12], 1, 1), ([18,
    6], 1, 2), ([18, 18], 2, 2), ([6, 18], 4, 2)], [([0, 0], 0, 0), ([12, 0], 0, 0), ([0, 12], 0,
    1), ([6, 6], 0, 3), ([12, 12], 1, 1), ([18, 6], 1, 3), ([6, 18], 2, 3), ([18, 18], 4, 3)], [],
    [], [], [], [], [], [], [], [], [], [], [([0], 0, 0), ([12], 0, 1), ([6], 0, 2), ([18], 1, 2)],
    [], [], [], [], [], [], [], [], [], [], [], [], []], [5, 1, 14, 4], []⟩
def abs_44 : AbsCert := ⟨[⟨.full, ⟨1,1,1⟩, 2⟩], [[([0, 0, 0], 0, 0), ([12, 12, 12], 0, 0)], [([0,
    0], 0, 0), ([12, 12], 0, 0)], [([0, 0], 0, 0), ([12, 12], 0, 0)], [], [], [], [], [], [], [],
    [], [], [], [], [([0], 0, 0), ([12], 0, 0)], [], [], [], [], [], [], [], [], [], [], [], [],
    []], [1], []⟩
def abs_45 : AbsCert := ⟨[⟨.full, ⟨1,1,1⟩, 2⟩, ⟨.x0, ⟨0,1,0⟩, 2⟩, ⟨.y0, ⟨1,0,0⟩, 2⟩], [[([0, 0, 0],
    0, 0), ([12, 12, 12], 0, 0)], [([0, 0], 0, 0), ([12, 12], 0, 0), ([12, 0], 0, 1), ([0, 12], 1,
    1)], [([0, 0], 0, 0), ([12, 12], 0, 0), ([12, 0], 0, 2), ([0, 12], 1, 2)], [], [], [], [], [],
    [], [], [], [], [], [], [([0], 0, 0), ([12], 0, 0)], [], [], [], [], [], [], [], [], [], [],
    [], [], []], [1, 6, 3], []⟩
def abs_46 : AbsCert := ⟨[⟨.full, ⟨1,1,1⟩, 2⟩, ⟨.y0, ⟨1,0,0⟩, 2⟩], [[([0, 0, 0], 0, 0), ([12, 12,
    12], 0, 0)], [([0, 0], 0, 0), ([12, 12], 0, 0)], [([0, 0], 0, 0), ([12, 12], 0, 0), ([12, 0],
    0, 1), ([0, 12], 1, 1)], [], [], [], [], [], [], [], [], [], [], [], [([0], 0, 0), ([12], 0,
    0)], [], [], [], [], [], [], [], [], [], [], [], [], []], [1, 3], []⟩
def abs_47 : AbsCert := ⟨[], [[([0, 0, 0], 0, 0)], [([0, 0], 0, 0)], [([0, 0], 0, 0)], [([0, 0], 0,
    0)], [], [], [], [], [], [], [], [], [([0], 0, 0)], [([0], 0, 0)], [([0], 0, 0)], [], [], [],
    [], [], [], [], [], [], [], [], [], [([], 0, 0)]], [], []⟩
def abs_48 : AbsCert := ⟨[⟨.x0, ⟨0,1,1⟩, 2⟩, ⟨.y0, ⟨1,0,1⟩, 2⟩, ⟨.z0, ⟨1,1,0⟩, 2⟩], [[([0, 0, 0],
    0, 0)], [([0, 0], 0, 0), ([12, 12], 0, 0)], [([0, 0], 0, 0), ([12, 12], 0, 1)], [([0, 0], 0,
    0), ([12, 12], 0, 2)], [], [], [], [], [], [], [], [], [([0], 0, 0), ([12], 0, 1)], [([0], 0,
    0), ([12], 0, 0)], [([0], 0, 0), ([12], 0, 0)], [], [], [], [], [], [], [], [], [], [], [], [],
    [([], 0, 0)]], [7, 6, 5], [7, 6, 5]⟩
def abs_49 : AbsCert := ⟨[⟨.x0, ⟨0,0,1⟩, 2⟩, ⟨.y0, ⟨0,0,1⟩, 2⟩], [[([0, 0, 0], 0, 0)], [([0, 0], 0,
    0), ([0, 12], 0, 0)], [([0, 0], 0, 0), ([0, 12], 0, 1)], [([0, 0], 0, 0)], [], [], [], [], [],
    [], [], [], [([0], 0, 0)], [([0], 0, 0)], [([0], 0, 0), ([12], 0, 0)], [], [], [], [], [], [],
    [], [], [], [], [], [], [([], 0, 0)]], [7, 5], []⟩
def abs_50 : AbsCert := ⟨[⟨.x0, ⟨0,1,0⟩, 2⟩, ⟨.y0, ⟨1,0,0⟩, 2⟩, ⟨.z0, ⟨1,1,0⟩, 2⟩], [[([0, 0, 0],
    0, 0)], [([0, 0], 0, 0), ([12, 0], 0, 0)], [([0, 0], 0, 0), ([12, 0], 0, 1)], [([0, 0], 0, 0),
    ([12, 12], 0, 2)], [], [], [], [], [], [], [], [], [([0], 0, 0), ([12], 0, 1)], [([0], 0, 0),
    ([12], 0, 0)], [([0], 0, 0)], [], [], [], [], [], [], [], [], [], [], [], [], [([], 0, 0)]],
    [7, 6, 5], [7, 6, 5]⟩
def abs_51 : AbsCert := ⟨[⟨.z0, ⟨1,0,0⟩, 2⟩, ⟨.ax, ⟨1,0,0⟩, 2⟩], [[([0, 0, 0], 0, 0)], [([0, 0], 0,
    0)], [([0, 0], 0, 0)], [([0, 0], 0, 0), ([12, 0], 0, 0)], [], [], [], [], [], [], [], [],
    [([0], 0, 0), ([12], 0, 0)], [([0], 0, 0)], [([0], 0, 0)], [], [], [], [], [], [], [], [], [],
    [], [], [], [([], 0, 0)]], [4, 4], []⟩
def abs_52 : AbsCert := ⟨[⟨.x0, ⟨0,1,1⟩, 2⟩, ⟨.y0, ⟨1,0,1⟩, 2⟩, ⟨.z0, ⟨1,0,0⟩, 2⟩, ⟨.ay, ⟨0,1,0⟩,
    2⟩], [[([0, 0, 0], 0, 0)], [([0, 0], 0, 0), ([12, 12], 0, 0)], [([0, 0], 0, 0), ([12, 12], 0,
    1)], [([0, 0], 0, 0), ([12, 0], 0, 2)], [], [], [], [], [], [], [], [], [([0], 0, 0), ([12], 0,
    1)], [([0], 0, 0), ([12], 0, 0)], [([0], 0, 0), ([12], 0, 0)], [], [], [], [], [], [], [], [],
    [], [], [], [], [([], 0, 0)]], [7, 5, 4, 3], []⟩
def abs_53 : AbsCert := ⟨[⟨.y0, ⟨1,0,1⟩, 2⟩, ⟨.z0, ⟨1,0,0⟩, 2⟩, ⟨.az, ⟨0,0,1⟩, 2⟩], [[([0, 0, 0],
    0, 0)], [([0, 0], 0, 0)], [([0, 0], 0, 0), ([12, 12], 0, 0)], [([0, 0], 0, 0), ([12, 0], 0,
    1)], [], [], [], [], [], [], [], [], [([0], 0, 0), ([12], 0, 0)], [([0], 0, 0)], [([0], 0, 0),
    ([12], 0, 0)], [], [], [], [], [], [], [], [], [], [], [], [], [([], 0, 0)]], [5, 4, 2], []⟩
def abs_54 : AbsCert := ⟨[⟨.x0, ⟨0,0,1⟩, 2⟩, ⟨.y0, ⟨0,0,1⟩, 2⟩, ⟨.z0, ⟨1,0,0⟩, 2⟩, ⟨.ax, ⟨1,0,0⟩,
    2⟩], [[([0, 0, 0], 0, 0)], [([0, 0], 0, 0), ([0, 12], 0, 0)], [([0, 0], 0, 0), ([0, 12], 0,
    1)], [([0, 0], 0, 0), ([12, 0], 0, 2)], [], [], [], [], [], [], [], [], [([0], 0, 0), ([12], 0,
    2)], [([0], 0, 0)], [([0], 0, 0), ([12], 0, 0)], [], [], [], [], [], [], [], [], [], [], [],
    [], [([], 0, 0)]], [7, 5, 4, 4], []⟩
def abs_55 : AbsCert := ⟨[⟨.x0, ⟨0,1,0⟩, 2⟩, ⟨.y0, ⟨1,0,0⟩, 2⟩, ⟨.ax, ⟨1,0,0⟩, 2⟩, ⟨.ay, ⟨0,1,0⟩,
    2⟩], [[([0, 0, 0], 0, 0)], [([0, 0], 0, 0), ([12, 0], 0, 0)], [([0, 0], 0, 0), ([12, 0], 0,
    1)], [([0, 0], 0, 0)], [], [], [], [], [], [], [], [], [([0], 0, 0), ([12], 0, 1)], [([0], 0,
    0), ([12], 0, 0)], [([0], 0, 0)], [], [], [], [], [], [], [], [], [], [], [], [], [([], 0,
    0)]], [7, 5, 5, 3], []⟩
def abs_56 : AbsCert := ⟨[⟨.x0, ⟨0,0,1⟩, 2⟩, ⟨.y0, ⟨0,0,1⟩, 2⟩, ⟨.z0, ⟨1,1,0⟩, 2⟩, ⟨.ax, ⟨1,0,0⟩,
    2⟩, ⟨.ay, ⟨0,1,0⟩, 2⟩], [[([0, 0, 0], 0, 0)], [([0, 0], 0, 0), ([0, 12], 0, 0)], [([0, 0], 0,
    0), ([0, 12], 0, 1)], [([0, 0], 0, 0), ([12, 12], 0, 2)], [], [], [], [], [], [], [], [],
    [([0], 0, 0), ([12], 0, 2)], [([0], 0, 0), ([12], 0, 2)], [([0], 0, 0), ([12], 0, 0)], [], [],
    [], [], [], [], [], [], [], [], [], [], [([], 0, 0)]], [7, 5, 4, 4, 3], []⟩
def abs_57 : AbsCert := ⟨[⟨.x0, ⟨0,1,0⟩, 2⟩, ⟨.y0, ⟨0,0,1⟩, 2⟩, ⟨.ay, ⟨0,1,0⟩, 2⟩, ⟨.az, ⟨0,0,1⟩,
    2⟩], [[([0, 0, 0], 0, 0)], [([0, 0], 0, 0), ([12, 0], 0, 0)], [([0, 0], 0, 0), ([0, 12], 0,
    1)], [([0, 0], 0, 0)], [], [], [], [], [], [], [], [], [([0], 0, 0)], [([0], 0, 0), ([12], 0,
    0)], [([0], 0, 0), ([12], 0, 1)], [], [], [], [], [], [], [], [], [], [], [], [], [([], 0,
    0)]], [7, 5, 3, 2], []⟩
def abs_58 : AbsCert := ⟨[⟨.x0, ⟨0,1,1⟩, 2⟩, ⟨.y0, ⟨1,0,1⟩, 2⟩, ⟨.ax, ⟨1,0,0⟩, 2⟩, ⟨.ay, ⟨0,1,0⟩,
    2⟩], [[([0, 0, 0], 0, 0)], [([0, 0], 0, 0), ([12, 12], 0, 0)], [([0, 0], 0, 0), ([12, 12], 0,
    1)], [([0, 0], 0, 0)], [], [], [], [], [], [], [], [], [([0], 0, 0), ([12], 0, 1)], [([0], 0,
    0), ([12], 0, 0)], [([0], 0, 0), ([12], 0, 0)], [], [], [], [], [], [], [], [], [], [], [], [],
    [([], 0, 0)]], [7, 5, 5, 3], []⟩
def abs_59 : AbsCert := ⟨[⟨.z0, ⟨1,1,0⟩, 2⟩, ⟨.ax, ⟨1,0,0⟩, 2⟩, ⟨.ay, ⟨0,1,0⟩, 2⟩], [[([0, 0, 0],
    0, 0)], [([0, 0], 0, 0)], [([0, 0], 0, 0)], [([0, 0], 0, 0), ([12, 12], 0, 0)], [], [], [], [],
    [], [], [], [], [([0], 0, 0), ([12], 0, 0)], [([0], 0, 0), ([12], 0, 0)], [([0], 0, 0)], [],
    [], [], [], [], [], [], [], [], [], [], [], [([], 0, 0)]], [5, 4, 2], [5, 4, 2]⟩
def abs_60 : AbsCert := ⟨[⟨.x0, ⟨0,1,0⟩, 2⟩, ⟨.y0, ⟨0,0,1⟩, 2⟩, ⟨.z0, ⟨1,1,0⟩, 2⟩, ⟨.ax, ⟨1,0,0⟩,
    2⟩, ⟨.az, ⟨0,0,1⟩, 2⟩], [[([0, 0, 0], 0, 0)], [([0, 0], 0, 0), ([12, 0], 0, 0)], [([0, 0], 0,
    0), ([0, 12], 0, 1)], [([0, 0], 0, 0), ([12, 12], 0, 2)], [], [], [], [], [], [], [], [],
    [([0], 0, 0), ([12], 0, 2)], [([0], 0, 0), ([12], 0, 0)], [([0], 0, 0), ([12], 0, 1)], [], [],
    [], [], [], [], [], [], [], [], [], [], [([], 0, 0)]], [7, 5, 4, 4, 2], []⟩
def abs_61 : AbsCert := ⟨[⟨.x0, ⟨0,1,0⟩, 2⟩, ⟨.y0, ⟨0,0,1⟩, 2⟩, ⟨.z0, ⟨1,0,0⟩, 2⟩, ⟨.ax, ⟨1,0,0⟩,
    2⟩, ⟨.ay, ⟨0,1,0⟩, 2⟩, ⟨.az, ⟨0,0,1⟩, 2⟩], [[([0, 0, 0], 0, 0)], [([0, 0], 0, 0), ([12, 0], 0,
    0)], [([0, 0], 0, 0), ([0, 12], 0, 1)], [([0, 0], 0, 0), ([12, 0], 0, 2)], [], [], [], [], [],
    [], [], [], [([0], 0, 0), ([12], 0, 2)], [([0], 0, 0), ([12], 0, 0)], [([0], 0, 0), ([12], 0,
    1)], [], [], [], [], [], [], [], [], [], [], [], [], [([], 0, 0)]], [7, 5, 4, 4, 3, 2], []⟩
def abs_62 : AbsCert := ⟨[⟨.x0, ⟨0,1,1⟩, 2⟩, ⟨.z0, ⟨1,0,0⟩, 2⟩, ⟨.ax, ⟨1,0,0⟩, 2⟩, ⟨.ay, ⟨0,1,0⟩,
    2⟩, ⟨.az, ⟨0,0,1⟩, 2⟩], [[([0, 0, 0], 0, 0)], [([0, 0], 0, 0), ([12, 12], 0, 0)], [([0, 0], 0,
    0)], [([0, 0], 0, 0), ([12, 0], 0, 1)], [], [], [], [], [], [], [], [], [([0], 0, 0), ([12], 0,
    1)], [([0], 0, 0), ([12], 0, 0)], [([0], 0, 0), ([12], 0, 0)], [], [], [], [], [], [], [], [],
    [], [], [], [], [([], 0, 0)]], [7, 4, 4, 3, 2], []⟩
def abs_63 : AbsCert := ⟨[⟨.full, ⟨1,1,0⟩, 2⟩, ⟨.y0, ⟨0,0,1⟩, 2⟩, ⟨.az, ⟨0,0,1⟩, 2⟩], [[([0, 0, 0],
    0, 0), ([12, 12, 0], 0, 0)], [([0, 0], 0, 0), ([12, 0], 0, 0)], [([0, 0], 0, 0), ([12, 0], 0,
    0), ([0, 12], 0, 1), ([12, 12], 1, 1)], [([0, 0], 0, 0), ([12, 12], 0, 0)], [], [], [], [], [],
    [], [], [], [([0], 0, 0), ([12], 0, 0)], [([0], 0, 0), ([12], 0, 0)], [([0], 0, 0), ([12], 0,
    1)], [], [], [], [], [], [], [], [], [], [], [], [], [([], 0, 0)]], [2, 7, 3], []⟩
def abs_64 : AbsCert := ⟨[⟨.full, ⟨1,1,0⟩, 2⟩, ⟨.y0, ⟨0,0,1⟩, 2⟩, ⟨.z0, ⟨1,0,0⟩, 2⟩, ⟨.az, ⟨0,0,1⟩,
    2⟩], [[([0, 0, 0], 0, 0), ([12, 12, 0], 0, 0)], [([0, 0], 0, 0), ([12, 0], 0, 0)], [([0, 0], 0,
    0), ([12, 0], 0, 0), ([0, 12], 0, 1), ([12, 12], 1, 1)], [([0, 0], 0, 0), ([12, 12], 0, 0),
    ([12, 0], 0, 2), ([0, 12], 1, 2)], [], [], [], [], [], [], [], [], [([0], 0, 0), ([12], 0, 0)],
    [([0], 0, 0), ([12], 0, 0)], [([0], 0, 0), ([12], 0, 1)], [], [], [], [], [], [], [], [], [],
    [], [], [], [([], 0, 0)]], [2, 7, 10, 3], []⟩
def abs_65 : AbsCert := ⟨[⟨.full, ⟨1,1,0⟩, 2⟩], [[([0, 0, 0], 0, 0), ([12, 12, 0], 0, 0)], [([0,
    0], 0, 0), ([12, 0], 0, 0)], [([0, 0], 0, 0), ([12, 0], 0, 0)], [([0, 0], 0, 0), ([12, 12], 0,
    0)], [], [], [], [], [], [], [], [], [([0], 0, 0), ([12], 0, 0)], [([0], 0, 0), ([12], 0, 0)],
    [([0], 0, 0)], [], [], [], [], [], [], [], [], [], [], [], [], [([], 0, 0)]], [2], []⟩
def abs_66 : AbsCert := ⟨[⟨.full, ⟨1,1,0⟩, 2⟩, ⟨.x0, ⟨0,0,1⟩, 2⟩, ⟨.y0, ⟨0,0,1⟩, 2⟩], [[([0, 0, 0],
    0, 0), ([12, 12, 0], 0, 0)], [([0, 0], 0, 0), ([12, 0], 0, 0), ([0, 12], 0, 1), ([12, 12], 1,
    1)], [([0, 0], 0, 0), ([12, 0], 0, 0), ([0, 12], 0, 2), ([12, 12], 1, 2)], [([0, 0], 0, 0),
    ([12, 12], 0, 0)], [], [], [], [], [], [], [], [], [([0], 0, 0), ([12], 0, 0)], [([0], 0, 0),
    ([12], 0, 0)], [([0], 0, 0), ([12], 0, 1)], [], [], [], [], [], [], [], [], [], [], [], [],
    [([], 0, 0)]], [2, 13, 7], []⟩
def abs_67 : AbsCert := ⟨[⟨.full, ⟨1,1,0⟩, 2⟩, ⟨.z0, ⟨1,0,0⟩, 2⟩], [[([0, 0, 0], 0, 0), ([12, 12,
    0], 0, 0)], [([0, 0], 0, 0), ([12, 0], 0, 0)], [([0, 0], 0, 0), ([12, 0], 0, 0)], [([0, 0], 0,
    0), ([12, 12], 0, 0), ([12, 0], 0, 1), ([0, 12], 1, 1)], [], [], [], [], [], [], [], [], [([0],
    0, 0), ([12], 0, 0)], [([0], 0, 0), ([12], 0, 0)], [([0], 0, 0)], [], [], [], [], [], [], [],
    [], [], [], [], [], [([], 0, 0)]], [2, 10], []⟩
def abs_68 : AbsCert := ⟨[⟨.full, ⟨1,1,0⟩, 2⟩, ⟨.x0, ⟨0,0,1⟩, 2⟩, ⟨.y0, ⟨0,0,1⟩, 2⟩, ⟨.z0, ⟨1,0,0⟩,
    2⟩], [[([0, 0, 0], 0, 0), ([12, 12, 0], 0, 0)], [([0, 0], 0, 0), ([12, 0], 0, 0), ([0, 12], 0,
    1), ([12, 12], 1, 1)], [([0, 0], 0, 0), ([12, 0], 0, 0), ([0, 12], 0, 2), ([12, 12], 1, 2)],
    [([0, 0], 0, 0), ([12, 12], 0, 0), ([12, 0], 0, 3), ([0, 12], 1, 3)], [], [], [], [], [], [],
    [], [], [([0], 0, 0), ([12], 0, 0)], [([0], 0, 0), ([12], 0, 0)], [([0], 0, 0), ([12], 0, 1)],
    [], [], [], [], [], [], [], [], [], [], [], [], [([], 0, 0)]], [1, 14, 12, 9], [1, 14, 12, 9]⟩
def abs_69 : AbsCert := ⟨[⟨.full, ⟨1,1,0⟩, 2⟩, ⟨.full, ⟨0,1,1⟩, 2⟩], [[([0, 0, 0], 0, 0), ([12, 12,
    0], 0, 0), ([0, 12, 12], 0, 1), ([12, 0, 12], 1, 1)], [([0, 0], 0, 0), ([12, 0], 0, 0), ([12,
    12], 0, 1), ([0, 12], 1, 1)], [([0, 0], 0, 0), ([12, 0], 0, 0), ([0, 12], 0, 1), ([12, 12], 1,
    1)], [([0, 0], 0, 0), ([12, 12], 0, 0), ([0, 12], 0, 1), ([12, 0], 1, 1)], [], [], [], [], [],
    [], [], [], [([0], 0, 0), ([12], 0, 0)], [([0], 0, 0), ([12], 0, 0)], [([0], 0, 0), ([12], 0,
    1)], [], [], [], [], [], [], [], [], [], [], [], [], [([], 0, 0)]], [10, 2], []⟩
def abs_70 : AbsCert := ⟨[⟨.full, ⟨1,1,0⟩, 2⟩, ⟨.full, ⟨0,1,1⟩, 2⟩, ⟨.x0, ⟨0,1,1⟩, 4⟩, ⟨.y0,
    ⟨1,0,1⟩, 4⟩, ⟨.z0, ⟨1,1,0⟩, 4⟩], [[([0, 0, 0], 0, 0), ([12, 12, 0], 0, 0), ([0, 12, 12], 0, 1),
    ([12, 0, 12], 1, 1)], [([0, 0], 0, 0), ([12, 0], 0, 0), ([12, 12], 0, 1), ([6, 6], 0, 2), ([0,
    12], 1, 1), ([18, 6], 1, 2), ([18, 18], 2, 2), ([6, 18], 4, 2)], [([0, 0], 0, 0), ([12, 0], 0,
    0), ([0, 12], 0, 1), ([6, 6], 0, 3), ([12, 12], 1, 1), ([18, 6], 1, 3), ([6, 18], 2, 3), ([18,
    18], 4, 3)], [([0, 0], 0, 0), ([12, 12], 0, 0), ([0, 12], 0, 1), ([6, 6], 0, 4), ([12, 0], 1,
    1), ([18, 18], 1, 4), ([6, 18], 2, 4), ([18, 6], 4, 4)], [], [], [], [], [], [], [], [], [([0],
    0, 0), ([12], 0, 0), ([6], 0, 3), ([18], 1, 3)], [([0], 0, 0), ([12], 0, 0), ([6], 0, 2),
    ([18], 1, 2)], [([0], 0, 0), ([12], 0, 1), ([6], 0, 2), ([18], 1, 2)], [], [], [], [], [], [],
    [], [], [], [], [], [], [([], 0, 0)]], [6, 1, 28, 24, 17], [6, 1, 28, 24, 17]⟩
def abs_71 : AbsCert := ⟨[⟨.full, ⟨1,1,1⟩, 2⟩], [[([0, 0, 0], 0, 0), ([12, 12, 12], 0, 0)], [([0,
    0], 0, 0), ([12, 12], 0, 0)], [([0, 0], 0, 0), ([12, 12], 0, 0)], [([0, 0], 0, 0), ([12, 12],
    0, 0)], [], [], [], [], [], [], [], [], [([0], 0, 0), ([12], 0, 0)], [([0], 0, 0), ([12], 0,
    0)], [([0], 0, 0), ([12], 0, 0)], [], [], [], [], [], [], [], [], [], [], [], [], [([], 0,
    0)]], [2], []⟩
def abs_72 : AbsCert := ⟨[⟨.full, ⟨1,1,1⟩, 2⟩, ⟨.x0, ⟨0,1,0⟩, 2⟩, ⟨.y0, ⟨1,0,0⟩, 2⟩], [[([0, 0, 0],
    0, 0), ([12, 12, 12], 0, 0)], [([0, 0], 0, 0), ([12, 12], 0, 0), ([12, 0], 0, 1), ([0, 12], 1,
    1)], [([0, 0], 0, 0), ([12, 12], 0, 0), ([12, 0], 0, 2), ([0, 12], 1, 2)], [([0, 0], 0, 0),
    ([12, 12], 0, 0)], [], [], [], [], [], [], [], [], [([0], 0, 0), ([12], 0, 0)], [([0], 0, 0),
    ([12], 0, 0)], [([0], 0, 0), ([12], 0, 0)], [], [], [], [], [], [], [], [], [], [], [], [],
    [([], 0, 0)]], [2, 13, 7], []⟩
def abs_73 : AbsCert := ⟨[⟨.full, ⟨1,1,1⟩, 2⟩, ⟨.x0, ⟨0,1,0⟩, 2⟩, ⟨.y0, ⟨0,0,1⟩, 2⟩, ⟨.z0, ⟨1,0,0⟩,
    2⟩, ⟨.ax, ⟨1,0,0⟩, 2⟩, ⟨.ay, ⟨0,1,0⟩, 2⟩, ⟨.az, ⟨0,0,1⟩, 2⟩], [[([0, 0, 0], 0, 0), ([12, 12,
    12], 0, 0)], [([0, 0], 0, 0), ([12, 12], 0, 0), ([12, 0], 0, 1), ([0, 12], 1, 1)], [([0, 0], 0,
    0), ([12, 12], 0, 0), ([0, 12], 0, 2), ([12, 0], 1, 2)], [([0, 0], 0, 0), ([12, 12], 0, 0),
    ([12, 0], 0, 3), ([0, 12], 1, 3)], [], [], [], [], [], [], [], [], [([0], 0, 0), ([12], 0, 0)],
    [([0], 0, 0), ([12], 0, 0)], [([0], 0, 0), ([12], 0, 0)], [], [], [], [], [], [], [], [], [],
    [], [], [], [([], 0, 0)]], [2, 13, 7, 6, 2, 2, 2], []⟩
def abs_74 : AbsCert := ⟨[⟨.full, ⟨1,1,1⟩, 2⟩, ⟨.z0, ⟨1,0,0⟩, 2⟩, ⟨.ax, ⟨1,0,0⟩, 2⟩, ⟨.ay, ⟨0,1,0⟩,
    2⟩, ⟨.az, ⟨0,0,1⟩, 2⟩], [[([0, 0, 0], 0, 0), ([12, 12, 12], 0, 0)], [([0, 0], 0, 0), ([12, 12],
    0, 0)], [([0, 0], 0, 0), ([12, 12], 0, 0)], [([0, 0], 0, 0), ([12, 12], 0, 0), ([12, 0], 0, 1),
    ([0, 12], 1, 1)], [], [], [], [], [], [], [], [], [([0], 0, 0), ([12], 0, 0)], [([0], 0, 0),
    ([12], 0, 0)], [([0], 0, 0), ([12], 0, 0)], [], [], [], [], [], [], [], [], [], [], [], [],
    [([], 0, 0)]], [2, 10, 2, 2, 2], []⟩
def abs_75 : AbsCert := ⟨[], [[([0, 0, 0], 0, 0)], [], [], [], [], [], [], [], [], [], [], [], [],
    [], [([0], 0, 0)], [], [], [], [], [], [], [], [], [], [], [], [], []], [], []⟩
def abs_76 : AbsCert := ⟨[⟨.az, ⟨0,0,1⟩, 4⟩], [[([0, 0, 0], 0, 0)], [], [], [], [], [], [], [], [],
    [], [], [], [], [], [([0], 0, 0), ([6], 0, 0), ([12], 1, 0), ([18], 2, 0)], [], [], [], [], [],
    [], [], [], [], [], [], [], []], [2], []⟩
def abs_77 : AbsCert := ⟨[⟨.az, ⟨0,0,1⟩, 2⟩], [[([0, 0, 0], 0, 0)], [], [], [], [], [], [], [], [],
    [], [], [], [], [], [([0], 0, 0), ([12], 0, 0)], [], [], [], [], [], [], [], [], [], [], [],
    [], []], [2], []⟩
def abs_78 : AbsCert := ⟨[⟨.az, ⟨0,0,1⟩, 4⟩], [[([0, 0, 0], 0, 0)], [], [], [], [], [], [], [], [],
    [], [], [], [], [], [([0], 0, 0), ([6], 0, 0), ([12], 1, 0), ([18], 2, 0)], [], [], [], [], [],
    [], [], [], [], [], [], [], []], [2], []⟩
def abs_79 : AbsCert := ⟨[⟨.full, ⟨1,1,1⟩, 2⟩], [[([0, 0, 0], 0, 0), ([12, 12, 12], 0, 0)], [], [],
    [], [], [], [], [], [], [], [], [], [], [], [([0], 0, 0), ([12], 0, 0)], [], [], [], [], [],
    [], [], [], [], [], [], [], []], [1], []⟩
def abs_80 : AbsCert := ⟨[⟨.full, ⟨1,1,1⟩, 2⟩, ⟨.az, ⟨0,0,1⟩, 4⟩], [[([0, 0, 0], 0, 0), ([12, 12,
    12], 0, 0)], [], [], [], [], [], [], [], [], [], [], [], [], [], [([0], 0, 0), ([12], 0, 0),
    ([6], 0, 1), ([18], 1, 1)], [], [], [], [], [], [], [], [], [], [], [], [], []], [1, 3], []⟩
def abs_81 : AbsCert := ⟨[], [[([0, 0, 0], 0, 0)], [], [], [], [], [], [], [], [], [], [], [], [],
    [], [([0], 0, 0)], [], [], [], [], [], [], [], [], [], [], [], [], [([], 0, 0)]], [], []⟩
def abs_82 : AbsCert := ⟨[⟨.full, ⟨1,1,1⟩, 2⟩], [[([0, 0, 0], 0, 0), ([12, 12, 12], 0, 0)], [], [],
    [], [], [], [], [], [], [], [], [], [], [], [([0], 0, 0), ([12], 0, 0)], [], [], [], [], [],
    [], [], [], [], [], [], [], [([], 0, 0)]], [1], []⟩
def abs_83 : AbsCert := ⟨[], [[([0, 0, 0], 0, 0)], [], [], [([0, 0], 0, 0)], [], [], [], [], [],
    [], [], [], [], [], [([0], 0, 0)], [], [], [], [], [], [], [], [], [], [], [], [], [([], 0,
    0)]], [], []⟩
def abs_84 : AbsCert := ⟨[⟨.az, ⟨0,0,1⟩, 2⟩], [[([0, 0, 0], 0, 0)], [], [], [([0, 0], 0, 0)], [],
    [], [], [], [], [], [], [], [], [], [([0], 0, 0), ([12], 0, 0)], [], [], [], [], [], [], [],
    [], [], [], [], [], [([], 0, 0)]], [3], []⟩
def abs_85 : AbsCert := ⟨[⟨.z0, ⟨1,1,0⟩, 2⟩], [[([0, 0, 0], 0, 0)], [], [], [([0, 0], 0, 0), ([12,
    12], 0, 0)], [], [], [], [], [], [], [], [], [], [], [([0], 0, 0)], [], [], [], [], [], [], [],
    [], [], [], [], [], [([], 0, 0)]], [5], [5]⟩
def abs_86 : AbsCert := ⟨[⟨.z0, ⟨1,1,0⟩, 2⟩, ⟨.az, ⟨0,0,1⟩, 2⟩], [[([0, 0, 0], 0, 0)], [], [],
    [([0, 0], 0, 0), ([12, 12], 0, 0)], [], [], [], [], [], [], [], [], [], [], [([0], 0, 0),
    ([12], 0, 1)], [], [], [], [], [], [], [], [], [], [], [], [], [([], 0, 0)]], [5, 2], [5, 2]⟩
def abs_87 : AbsCert := ⟨[⟨.full, ⟨1,1,1⟩, 2⟩], [[([0, 0, 0], 0, 0), ([12, 12, 12], 0, 0)], [], [],
    [([0, 0], 0, 0), ([12, 12], 0, 0)], [], [], [], [], [], [], [], [], [], [], [([0], 0, 0),
    ([12], 0, 0)], [], [], [], [], [], [], [], [], [], [], [], [], [([], 0, 0)]], [2], []⟩
def abs_88 : AbsCert := ⟨[⟨.full, ⟨1,1,1⟩, 2⟩, ⟨.z0, ⟨1,0,0⟩, 2⟩, ⟨.az, ⟨0,0,1⟩, 4⟩], [[([0, 0, 0],
    0, 0), ([12, 12, 12], 0, 0)], [], [], [([0, 0], 0, 0), ([12, 12], 0, 0), ([12, 0], 0, 1), ([0,
    12], 1, 1)], [], [], [], [], [], [], [], [], [], [], [([0], 0, 0), ([12], 0, 0), ([6], 0, 2),
    ([18], 1, 2)], [], [], [], [], [], [], [], [], [], [], [], [], [([], 0, 0)]], [1, 9, 3], [1, 9,
    3]⟩
def abs_89 : AbsCert := ⟨[], [[([0, 0, 0], 0, 0)], [], [], [], [], [], [], [], [], [], [], [],
    [([0], 0, 0)], [([0], 0, 0)], [([0], 0, 0)], [([0], 0, 0)], [([0], 0, 0)], [], [], [], [], [],
    [], [], [], [], [], []], [], []⟩
def abs_90 : AbsCert := ⟨[⟨.ax, ⟨1,0,0⟩, 2⟩, ⟨.ay, ⟨0,1,0⟩, 2⟩], [[([0, 0, 0], 0, 0)], [], [], [],
    [], [], [], [], [], [], [], [], [([0], 0, 0), ([12], 0, 0)], [([0], 0, 0), ([12], 0, 1)],
    [([0], 0, 0)], [([0], 0, 0)], [([0], 0, 0)], [], [], [], [], [], [], [], [], [], [], []], [5,
    3], []⟩
def abs_91 : AbsCert := ⟨[⟨.az, ⟨0,0,1⟩, 4⟩], [[([0, 0, 0], 0, 0)], [], [], [], [], [], [], [], [],
    [], [], [], [([0], 0, 0)], [([0], 0, 0)], [([0], 0, 0), ([6], 0, 0), ([12], 1, 0), ([18], 2,
    0)], [([0], 0, 0)], [([0], 0, 0)], [], [], [], [], [], [], [], [], [], [], []], [2], []⟩
def abs_92 : AbsCert := ⟨[⟨.az, ⟨0,0,1⟩, 4⟩, ⟨.ax, ⟨1,0,0⟩, 2⟩, ⟨.ay, ⟨0,1,0⟩, 2⟩], [[([0, 0, 0],
    0, 0)], [], [], [], [], [], [], [], [], [], [], [], [([0], 0, 0), ([12], 0, 1)], [([0], 0, 0),
    ([12], 0, 2)], [([0], 0, 0), ([6], 0, 0), ([12], 1, 0), ([18], 2, 0)], [([0], 0, 0)], [([0], 0,
    0)], [], [], [], [], [], [], [], [], [], [], []], [2, 5, 3], []⟩
def abs_93 : AbsCert := ⟨[⟨.az, ⟨0,0,1⟩, 2⟩], [[([0, 0, 0], 0, 0)], [], [], [], [], [], [], [], [],
    [], [], [], [([0], 0, 0)], [([0], 0, 0)], [([0], 0, 0), ([12], 0, 0)], [([0], 0, 0)], [([0], 0,
    0)], [], [], [], [], [], [], [], [], [], [], []], [2], []⟩
def abs_94 : AbsCert := ⟨[⟨.az, ⟨0,0,1⟩, 2⟩, ⟨.ax, ⟨1,0,0⟩, 2⟩, ⟨.ay, ⟨0,1,0⟩, 2⟩], [[([0, 0, 0],
    0, 0)], [], [], [], [], [], [], [], [], [], [], [], [([0], 0, 0), ([12], 0, 1)], [([0], 0, 0),
    ([12], 0, 2)], [([0], 0, 0), ([12], 0, 0)], [([0], 0, 0)], [([0], 0, 0)], [], [], [], [], [],
    [], [], [], [], [], []], [2, 5, 3], []⟩
def abs_95 : AbsCert := ⟨[⟨.az, ⟨0,0,1⟩, 4⟩], [[([0, 0, 0], 0, 0)], [], [], [], [], [], [], [], [],
    [], [], [], [([0], 0, 0)], [([0], 0, 0)], [([0], 0, 0), ([6], 0, 0), ([12], 1, 0), ([18], 2,
    0)], [([0], 0, 0)], [([0], 0, 0)], [], [], [], [], [], [], [], [], [], [], []], [2], []⟩
def abs_96 : AbsCert := ⟨[⟨.az, ⟨0,0,1⟩, 4⟩, ⟨.ax, ⟨1,0,0⟩, 2⟩, ⟨.ay, ⟨0,1,0⟩, 2⟩], [[([0, 0, 0],
    0, 0)], [], [], [], [], [], [], [], [], [], [], [], [([0], 0, 0), ([12], 0, 1)], [([0], 0, 0),
    ([12], 0, 2)], [([0], 0, 0), ([6], 0, 0), ([12], 1, 0), ([18], 2, 0)], [([0], 0, 0)], [([0], 0,
    0)], [], [], [], [], [], [], [], [], [], [], []], [2, 5, 3], []⟩
def abs_97 : AbsCert := ⟨[⟨.full, ⟨1,1,1⟩, 2⟩], [[([0, 0, 0], 0, 0), ([12, 12, 12], 0, 0)], [], [],
    [], [], [], [], [], [], [], [], [], [([0], 0, 0), ([12], 0, 0)], [([0], 0, 0), ([12], 0, 0)],
    [([0], 0, 0), ([12], 0, 0)], [([0], 0, 0)], [([0], 0, 0)], [], [], [], [], [], [], [], [], [],
    [], []], [1], []⟩
def abs_98 : AbsCert := ⟨[⟨.full, ⟨1,1,1⟩, 2⟩, ⟨.az, ⟨0,0,1⟩, 4⟩], [[([0, 0, 0], 0, 0), ([12, 12,
    12], 0, 0)], [], [], [], [], [], [], [], [], [], [], [], [([0], 0, 0), ([12], 0, 0)], [([0], 0,
    0), ([12], 0, 0)], [([0], 0, 0), ([12], 0, 0), ([6], 0, 1), ([18], 1, 1)], [([0], 0, 0)],
    [([0], 0, 0)], [], [], [], [], [], [], [], [], [], [], []], [1, 3], []⟩
def abs_99 : AbsCert := ⟨[], [[([0, 0, 0], 0, 0)], [([0, 0], 0, 0)], [([0, 0], 0, 0)], [], [([0,
    0], 0, 0)], [([0, 0], 0, 0)], [], [], [], [], [], [], [], [], [([0], 0, 0)], [], [], [], [],
    [], [], [], [], [], [], [], [], []], [], []⟩
def abs_100 : AbsCert := ⟨[⟨.x0, ⟨0,1,0⟩, 2⟩, ⟨.y0, ⟨1,0,0⟩, 2⟩], [[([0, 0, 0], 0, 0)], [([0, 0],
    0, 0), ([12, 0], 0, 0)], [([0, 0], 0, 0), ([12, 0], 0, 1)], [], [([0, 0], 0, 0)], [([0, 0], 0,
    0)], [], [], [], [], [], [], [], [], [([0], 0, 0)], [], [], [], [], [], [], [], [], [], [], [],
    [], []], [5, 3], []⟩
def abs_101 : AbsCert := ⟨[⟨.x0, ⟨0,0,1⟩, 2⟩, ⟨.y0, ⟨0,0,1⟩, 2⟩, ⟨.az, ⟨0,0,1⟩, 2⟩], [[([0, 0, 0],
    0, 0)], [([0, 0], 0, 0), ([0, 12], 0, 0)], [([0, 0], 0, 0), ([0, 12], 0, 1)], [], [([0, 0], 0,
    0)], [([0, 0], 0, 0)], [], [], [], [], [], [], [], [], [([0], 0, 0), ([12], 0, 0)], [], [], [],
    [], [], [], [], [], [], [], [], [], []], [5, 3, 2], []⟩
def abs_102 : AbsCert := ⟨[⟨.x0, ⟨0,1,1⟩, 2⟩, ⟨.y0, ⟨1,0,1⟩, 2⟩, ⟨.az, ⟨0,0,1⟩, 2⟩], [[([0, 0, 0],
    0, 0)], [([0, 0], 0, 0), ([12, 12], 0, 0)], [([0, 0], 0, 0), ([12, 12], 0, 1)], [], [([0, 0],
    0, 0)], [([0, 0], 0, 0)], [], [], [], [], [], [], [], [], [([0], 0, 0), ([12], 0, 0)], [], [],
    [], [], [], [], [], [], [], [], [], [], []], [5, 3, 2], []⟩
def abs_103 : AbsCert := ⟨[⟨.x0, ⟨0,0,1⟩, 2⟩, ⟨.y0, ⟨0,0,1⟩, 2⟩, ⟨.xy, ⟨0,0,1⟩, 2⟩, ⟨.xny, ⟨0,0,1⟩,
    2⟩], [[([0, 0, 0], 0, 0)], [([0, 0], 0, 0), ([0, 12], 0, 0)], [([0, 0], 0, 0), ([0, 12], 0,
    1)], [], [([0, 0], 0, 0), ([0, 12], 0, 2)], [([0, 0], 0, 0), ([0, 12], 0, 3)], [], [], [], [],
    [], [], [], [], [([0], 0, 0), ([12], 0, 0)], [], [], [], [], [], [], [], [], [], [], [], [],
    []], [5, 3, 6, 7], []⟩
def abs_104 : AbsCert := ⟨[⟨.x0, ⟨0,1,1⟩, 2⟩, ⟨.y0, ⟨1,0,1⟩, 2⟩, ⟨.xy, ⟨0,0,1⟩, 2⟩, ⟨.xny, ⟨0,0,1⟩,
    2⟩], [[([0, 0, 0], 0, 0)], [([0, 0], 0, 0), ([12, 12], 0, 0)], [([0, 0], 0, 0), ([12, 12], 0,
    1)], [], [([0, 0], 0, 0), ([0, 12], 0, 2)], [([0, 0], 0, 0), ([0, 12], 0, 3)], [], [], [], [],
    [], [], [], [], [([0], 0, 0), ([12], 0, 0)], [], [], [], [], [], [], [], [], [], [], [], [],
    []], [5, 3, 6, 7], []⟩
def abs_105 : AbsCert := ⟨[⟨.xy, ⟨0,0,1⟩, 2⟩, ⟨.xny, ⟨0,0,1⟩, 2⟩, ⟨.az, ⟨0,0,1⟩, 2⟩], [[([0, 0, 0],
    0, 0)], [([0, 0], 0, 0)], [([0, 0], 0, 0)], [], [([0, 0], 0, 0), ([0, 12], 0, 0)], [([0, 0], 0,
    0), ([0, 12], 0, 1)], [], [], [], [], [], [], [], [], [([0], 0, 0), ([12], 0, 0)], [], [], [],
    [], [], [], [], [], [], [], [], [], []], [6, 7, 2], []⟩
def abs_106 : AbsCert := ⟨[⟨.x0, ⟨0,1,0⟩, 2⟩, ⟨.y0, ⟨1,0,0⟩, 2⟩, ⟨.xy, ⟨0,0,1⟩, 2⟩, ⟨.xny, ⟨0,0,1⟩,
    2⟩, ⟨.az, ⟨0,0,1⟩, 2⟩], [[([0, 0, 0], 0, 0)], [([0, 0], 0, 0), ([12, 0], 0, 0)], [([0, 0], 0,
    0), ([12, 0], 0, 1)], [], [([0, 0], 0, 0), ([0, 12], 0, 2)], [([0, 0], 0, 0), ([0, 12], 0, 3)],
    [], [], [], [], [], [], [], [], [([0], 0, 0), ([12], 0, 2)], [], [], [], [], [], [], [], [],
    [], [], [], [], []], [5, 3, 6, 7, 2], []⟩
def abs_107 : AbsCert := ⟨[⟨.full, ⟨1,1,1⟩, 2⟩], [[([0, 0, 0], 0, 0), ([12, 12, 12], 0, 0)], [([0,
    0], 0, 0), ([12, 12], 0, 0)], [([0, 0], 0, 0), ([12, 12], 0, 0)], [], [([0, 0], 0, 0), ([0,
    12], 0, 0)], [([0, 0], 0, 0), ([0, 12], 0, 0)], [], [], [], [], [], [], [], [], [([0], 0, 0),
    ([12], 0, 0)], [], [], [], [], [], [], [], [], [], [], [], [], []], [1], []⟩
def abs_108 : AbsCert := ⟨[⟨.full, ⟨1,1,1⟩, 2⟩, ⟨.x0, ⟨0,0,1⟩, 2⟩, ⟨.y0, ⟨0,0,1⟩, 2⟩], [[([0, 0,
    0], 0, 0), ([12, 12, 12], 0, 0)], [([0, 0], 0, 0), ([12, 12], 0, 0), ([0, 12], 0, 1), ([12, 0],
    1, 1)], [([0, 0], 0, 0), ([12, 12], 0, 0), ([0, 12], 0, 2), ([12, 0], 1, 2)], [], [([0, 0], 0,
    0), ([0, 12], 0, 0)], [([0, 0], 0, 0), ([0, 12], 0, 0)], [], [], [], [], [], [], [], [], [([0],
    0, 0), ([12], 0, 0)], [], [], [], [], [], [], [], [], [], [], [], [], []], [1, 9, 4], []⟩
def abs_109 : AbsCert := ⟨[⟨.full, ⟨1,1,1⟩, 2⟩, ⟨.xy, ⟨2,0,1⟩, 4⟩, ⟨.xny, ⟨2,0,1⟩, 4⟩, ⟨.az,
    ⟨0,0,1⟩, 4⟩], [[([0, 0, 0], 0, 0), ([12, 12, 12], 0, 0)], [([0, 0], 0, 0), ([12, 12], 0, 0)],
    [([0, 0], 0, 0), ([12, 12], 0, 0)], [], [([0, 0], 0, 0), ([0, 12], 0, 0), ([12, 6], 0, 1),
    ([12, 18], 1, 1)], [([0, 0], 0, 0), ([0, 12], 0, 0), ([12, 6], 0, 2), ([12, 18], 1, 2)], [],
    [], [], [], [], [], [], [], [([0], 0, 0), ([12], 0, 0), ([6], 0, 1), ([18], 1, 1)], [], [], [],
    [], [], [], [], [], [], [], [], [], []], [1, 12, 14, 3], []⟩
def abs_110 : AbsCert := ⟨[⟨.full, ⟨1,1,1⟩, 2⟩, ⟨.x0, ⟨0,0,1⟩, 2⟩, ⟨.y0, ⟨0,0,1⟩, 2⟩, ⟨.xy,
    ⟨2,0,1⟩, 4⟩, ⟨.xny, ⟨2,0,1⟩, 4⟩, ⟨.az, ⟨0,0,1⟩, 4⟩], [[([0, 0, 0], 0, 0), ([12, 12, 12], 0,
    0)], [([0, 0], 0, 0), ([12, 12], 0, 0), ([0, 12], 0, 1), ([12, 0], 1, 1)], [([0, 0], 0, 0),
    ([12, 12], 0, 0), ([0, 12], 0, 2), ([12, 0], 1, 2)], [], [([0, 0], 0, 0), ([0, 12], 0, 0),
    ([12, 6], 0, 3), ([12, 18], 1, 3)], [([0, 0], 0, 0), ([0, 12], 0, 0), ([12, 6], 0, 4), ([12,
    18], 1, 4)], [], [], [], [], [], [], [], [], [([0], 0, 0), ([12], 0, 0), ([6], 0, 3), ([18], 1,
    3)], [], [], [], [], [], [], [], [], [], [], [], [], []], [1, 11, 4, 12, 14, 3], []⟩
def abs_111 : AbsCert := ⟨[], [[([0, 0, 0], 0, 0)], [], [], [], [([0, 0], 0, 0)], [([0, 0], 0, 0)],
    [], [], [], [], [], [], [([0], 0, 0)], [([0], 0, 0)], [([0], 0, 0)], [], [], [], [], [], [],
    [], [], [], [], [], [], [([], 0, 0)]], [], []⟩
def abs_112 : AbsCert := ⟨[⟨.xy, ⟨0,0,1⟩, 2⟩, ⟨.xny, ⟨0,0,1⟩, 2⟩], [[([0, 0, 0], 0, 0)], [], [],
    [], [([0, 0], 0, 0), ([0, 12], 0, 0)], [([0, 0], 0, 0), ([0, 12], 0, 1)], [], [], [], [], [],
    [], [([0], 0, 0)], [([0], 0, 0)], [([0], 0, 0), ([12], 0, 0)], [], [], [], [], [], [], [], [],
    [], [], [], [], [([], 0, 0)]], [6, 7], []⟩
def abs_113 : AbsCert := ⟨[⟨.ax, ⟨1,0,0⟩, 2⟩, ⟨.ay, ⟨0,1,0⟩, 2⟩], [[([0, 0, 0], 0, 0)], [], [], [],
    [([0, 0], 0, 0)], [([0, 0], 0, 0)], [], [], [], [], [], [], [([0], 0, 0), ([12], 0, 0)], [([0],
    0, 0), ([12], 0, 1)], [([0], 0, 0)], [], [], [], [], [], [], [], [], [], [], [], [], [([], 0,
    0)]], [5, 3], []⟩
def abs_114 : AbsCert := ⟨[⟨.xy, ⟨0,0,1⟩, 2⟩, ⟨.xny, ⟨0,0,1⟩, 2⟩, ⟨.ax, ⟨1,0,0⟩, 2⟩, ⟨.ay, ⟨0,1,0⟩,
    2⟩], [[([0, 0, 0], 0, 0)], [], [], [], [([0, 0], 0, 0), ([0, 12], 0, 0)], [([0, 0], 0, 0), ([0,
    12], 0, 1)], [], [], [], [], [], [], [([0], 0, 0), ([12], 0, 2)], [([0], 0, 0), ([12], 0, 3)],
    [([0], 0, 0), ([12], 0, 0)], [], [], [], [], [], [], [], [], [], [], [], [], [([], 0, 0)]], [6,
    7, 5, 3], []⟩
def abs_115 : AbsCert := ⟨[], [[([0, 0, 0], 0, 0)], [([0, 0], 0, 0)], [([0, 0], 0, 0)], [], [], [],
    [], [], [], [], [], [], [], [], [([0], 0, 0)], [([0], 0, 0)], [([0], 0, 0)], [], [], [], [],
    [], [], [], [], [], [], [([], 0, 0)]], [], []⟩
def abs_116 : AbsCert := ⟨[⟨.x0, ⟨0,0,1⟩, 2⟩, ⟨.y0, ⟨0,0,1⟩, 2⟩], [[([0, 0, 0], 0, 0)], [([0, 0],
    0, 0), ([0, 12], 0, 0)], [([0, 0], 0, 0), ([0, 12], 0, 1)], [], [], [], [], [], [], [], [], [],
    [], [], [([0], 0, 0), ([12], 0, 0)], [([0], 0, 0)], [([0], 0, 0)], [], [], [], [], [], [], [],
    [], [], [], [([], 0, 0)]], [5, 3], []⟩
def abs_117 : AbsCert := ⟨[⟨.x0, ⟨0,1,0⟩, 2⟩, ⟨.y0, ⟨1,0,0⟩, 2⟩], [[([0, 0, 0], 0, 0)], [([0, 0],
    0, 0), ([12, 0], 0, 0)], [([0, 0], 0, 0), ([12, 0], 0, 1)], [], [], [], [], [], [], [], [], [],
    [], [], [([0], 0, 0)], [([0], 0, 0)], [([0], 0, 0)], [], [], [], [], [], [], [], [], [], [],
    [([], 0, 0)]], [5, 3], []⟩
def abs_118 : AbsCert := ⟨[⟨.x0, ⟨0,1,1⟩, 2⟩, ⟨.y0, ⟨1,0,1⟩, 2⟩], [[([0, 0, 0], 0, 0)], [([0, 0],
    0, 0), ([12, 12], 0, 0)], [([0, 0], 0, 0), ([12, 12], 0, 1)], [], [], [], [], [], [], [], [],
    [], [], [], [([0], 0, 0), ([12], 0, 0)], [([0], 0, 0)], [([0], 0, 0)], [], [], [], [], [], [],
    [], [], [], [], [([], 0, 0)]], [5, 3], []⟩
def abs_119 : AbsCert := ⟨[⟨.full, ⟨1,1,1⟩, 2⟩], [[([0, 0, 0], 0, 0), ([12, 12, 12], 0, 0)], [([0,
    0], 0, 0), ([12, 12], 0, 0)], [([0, 0], 0, 0), ([12, 12], 0, 0)], [], [], [], [], [], [], [],
    [], [], [], [], [([0], 0, 0), ([12], 0, 0)], [([0], 0, 0)], [([0], 0, 0)], [], [], [], [], [],
    [], [], [], [], [], [([], 0, 0)]], [1], []⟩
def abs_120 : AbsCert := ⟨[⟨.full, ⟨1,1,1⟩, 2⟩, ⟨.x0, ⟨0,0,1⟩, 2⟩, ⟨.y0, ⟨0,0,1⟩, 2⟩], [[([0, 0,
    0], 0, 0), ([12, 12, 12], 0, 0)], [([0, 0], 0, 0), ([12, 12], 0, 0), ([0, 12], 0, 1), ([12, 0],
    1, 1)], [([0, 0], 0, 0), ([12, 12], 0, 0), ([0, 12], 0, 2), ([12, 0], 1, 2)], [], [], [], [],
    [], [], [], [], [], [], [], [([0], 0, 0), ([12], 0, 0)], [([0], 0, 0)], [([0], 0, 0)], [], [],
    [], [], [], [], [], [], [], [], [([], 0, 0)]], [1, 9, 4], []⟩
def abs_121 : AbsCert := ⟨[⟨.full, ⟨1,1,1⟩, 2⟩], [[([0, 0, 0], 0, 0), ([12, 12, 12], 0, 0)], [],
    [], [], [([0, 0], 0, 0), ([0, 12], 0, 0)], [([0, 0], 0, 0), ([0, 12], 0, 0)], [], [], [], [],
    [], [], [([0], 0, 0), ([12], 0, 0)], [([0], 0, 0), ([12], 0, 0)], [([0], 0, 0), ([12], 0, 0)],
    [], [], [], [], [], [], [], [], [], [], [], [], [([], 0, 0)]], [1], []⟩
def abs_122 : AbsCert := ⟨[⟨.full, ⟨1,1,1⟩, 2⟩, ⟨.xy, ⟨2,0,1⟩, 4⟩, ⟨.xny, ⟨2,0,1⟩, 4⟩], [[([0, 0,
    0], 0, 0), ([12, 12, 12], 0, 0)], [], [], [], [([0, 0], 0, 0), ([0, 12], 0, 0), ([12, 6], 0,
    1), ([12, 18], 1, 1)], [([0, 0], 0, 0), ([0, 12], 0, 0), ([12, 6], 0, 2), ([12, 18], 1, 2)],
    [], [], [], [], [], [], [([0], 0, 0), ([12], 0, 0)], [([0], 0, 0), ([12], 0, 0)], [([0], 0, 0),
    ([12], 0, 0), ([6], 0, 1), ([18], 1, 1)], [], [], [], [], [], [], [], [], [], [], [], [], [([],
    0, 0)]], [1, 12, 14], []⟩
def abs_123 : AbsCert := ⟨[], [[([0, 0, 0], 0, 0)], [([0, 0], 0, 0)], [([0, 0], 0, 0)], [([0, 0],
    0, 0)], [([0, 0], 0, 0)], [([0, 0], 0, 0)], [], [], [], [], [], [], [([0], 0, 0)], [([0], 0,
    0)], [([0], 0, 0)], [([0], 0, 0)], [([0], 0, 0)], [], [], [], [], [], [], [], [], [], [], [([],
    0, 0)]], [], []⟩
def abs_124 : AbsCert := ⟨[⟨.x0, ⟨0,0,1⟩, 2⟩, ⟨.y0, ⟨0,0,1⟩, 2⟩, ⟨.xy, ⟨0,0,1⟩, 2⟩, ⟨.xny, ⟨0,0,1⟩,
    2⟩], [[([0, 0, 0], 0, 0)], [([0, 0], 0, 0), ([0, 12], 0, 0)], [([0, 0], 0, 0), ([0, 12], 0,
    1)], [([0, 0], 0, 0)], [([0, 0], 0, 0), ([0, 12], 0, 2)], [([0, 0], 0, 0), ([0, 12], 0, 3)],
    [], [], [], [], [], [], [([0], 0, 0)], [([0], 0, 0)], [([0], 0, 0), ([12], 0, 0)], [([0], 0,
    0)], [([0], 0, 0)], [], [], [], [], [], [], [], [], [], [], [([], 0, 0)]], [11, 7, 13, 15], []⟩
def abs_125 : AbsCert := ⟨[⟨.z0, ⟨1,1,0⟩, 2⟩, ⟨.x0, ⟨0,1,0⟩, 2⟩, ⟨.y0, ⟨1,0,0⟩, 2⟩], [[([0, 0, 0],
    0, 0)], [([0, 0], 0, 0), ([12, 0], 0, 1)], [([0, 0], 0, 0), ([12, 0], 0, 2)], [([0, 0], 0, 0),
    ([12, 12], 0, 0)], [([0, 0], 0, 0)], [([0, 0], 0, 0)], [], [], [], [], [], [], [([0], 0, 0),
    ([12], 0, 0)], [([0], 0, 0), ([12], 0, 0)], [([0], 0, 0)], [([0], 0, 0)], [([0], 0, 0)], [],
    [], [], [], [], [], [], [], [], [], [([], 0, 0)]], [7, 13, 12], [7, 13, 12]⟩
def abs_126 : AbsCert := ⟨[⟨.z0, ⟨1,1,0⟩, 2⟩, ⟨.x0, ⟨0,1,1⟩, 2⟩, ⟨.y0, ⟨1,0,1⟩, 2⟩, ⟨.xy, ⟨0,0,1⟩,
    2⟩, ⟨.xny, ⟨0,0,1⟩, 2⟩], [[([0, 0, 0], 0, 0)], [([0, 0], 0, 0), ([12, 12], 0, 1)], [([0, 0], 0,
    0), ([12, 12], 0, 2)], [([0, 0], 0, 0), ([12, 12], 0, 0)], [([0, 0], 0, 0), ([0, 12], 0, 3)],
    [([0, 0], 0, 0), ([0, 12], 0, 4)], [], [], [], [], [], [], [([0], 0, 0), ([12], 0, 0)], [([0],
    0, 0), ([12], 0, 0)], [([0], 0, 0), ([12], 0, 1)], [([0], 0, 0)], [([0], 0, 0)], [], [], [],
    [], [], [], [], [], [], [], [([], 0, 0)]], [7, 13, 12, 15, 14], [7, 13, 12, 15, 14]⟩
def abs_127 : AbsCert := ⟨[⟨.x0, ⟨0,1,0⟩, 2⟩, ⟨.y0, ⟨1,0,0⟩, 2⟩, ⟨.ax, ⟨1,0,0⟩, 2⟩, ⟨.ay, ⟨0,1,0⟩,
    2⟩], [[([0, 0, 0], 0, 0)], [([0, 0], 0, 0), ([12, 0], 0, 0)], [([0, 0], 0, 0), ([12, 0], 0,
    1)], [([0, 0], 0, 0)], [([0, 0], 0, 0)], [([0, 0], 0, 0)], [], [], [], [], [], [], [([0], 0,
    0), ([12], 0, 1)], [([0], 0, 0), ([12], 0, 0)], [([0], 0, 0)], [([0], 0, 0)], [([0], 0, 0)],
    [], [], [], [], [], [], [], [], [], [], [([], 0, 0)]], [11, 7, 7, 4], []⟩
def abs_128 : AbsCert := ⟨[⟨.x0, ⟨0,1,1⟩, 2⟩, ⟨.y0, ⟨1,0,1⟩, 2⟩, ⟨.xy, ⟨0,0,1⟩, 2⟩, ⟨.xny, ⟨0,0,1⟩,
    2⟩, ⟨.ax, ⟨1,0,0⟩, 2⟩, ⟨.ay, ⟨0,1,0⟩, 2⟩], [[([0, 0, 0], 0, 0)], [([0, 0], 0, 0), ([12, 12], 0,
    0)], [([0, 0], 0, 0), ([12, 12], 0, 1)], [([0, 0], 0, 0)], [([0, 0], 0, 0), ([0, 12], 0, 2)],
    [([0, 0], 0, 0), ([0, 12], 0, 3)], [], [], [], [], [], [], [([0], 0, 0), ([12], 0, 1)], [([0],
    0, 0), ([12], 0, 0)], [([0], 0, 0), ([12], 0, 0)], [([0], 0, 0)], [([0], 0, 0)], [], [], [],
    [], [], [], [], [], [], [], [([], 0, 0)]], [11, 7, 13, 15, 7, 4], []⟩
def abs_129 : AbsCert := ⟨[⟨.z0, ⟨1,1,0⟩, 2⟩, ⟨.ax, ⟨1,0,0⟩, 2⟩, ⟨.ay, ⟨0,1,0⟩, 2⟩], [[([0, 0, 0],
    0, 0)], [([0, 0], 0, 0)], [([0, 0], 0, 0)], [([0, 0], 0, 0), ([12, 12], 0, 0)], [([0, 0], 0,
    0)], [([0, 0], 0, 0)], [], [], [], [], [], [], [([0], 0, 0), ([12], 0, 0)], [([0], 0, 0),
    ([12], 0, 0)], [([0], 0, 0)], [([0], 0, 0)], [([0], 0, 0)], [], [], [], [], [], [], [], [], [],
    [], [([], 0, 0)]], [7, 6, 3], [7, 6, 3]⟩
def abs_130 : AbsCert := ⟨[⟨.z0, ⟨1,1,0⟩, 2⟩, ⟨.x0, ⟨0,0,1⟩, 2⟩, ⟨.y0, ⟨0,0,1⟩, 2⟩, ⟨.xy, ⟨0,0,1⟩,
    2⟩, ⟨.xny, ⟨0,0,1⟩, 2⟩, ⟨.ax, ⟨1,0,0⟩, 2⟩, ⟨.ay, ⟨0,1,0⟩, 2⟩], [[([0, 0, 0], 0, 0)], [([0, 0],
    0, 0), ([0, 12], 0, 1)], [([0, 0], 0, 0), ([0, 12], 0, 2)], [([0, 0], 0, 0), ([12, 12], 0, 0)],
    [([0, 0], 0, 0), ([0, 12], 0, 3)], [([0, 0], 0, 0), ([0, 12], 0, 4)], [], [], [], [], [], [],
    [([0], 0, 0), ([12], 0, 0)], [([0], 0, 0), ([12], 0, 0)], [([0], 0, 0), ([12], 0, 1)], [([0],
    0, 0)], [([0], 0, 0)], [], [], [], [], [], [], [], [], [], [], [([], 0, 0)]], [7, 13, 12, 15,
    14, 6, 3], [7, 13, 12, 15, 14, 6, 3]⟩
def abs_131 : AbsCert := ⟨[⟨.xy, ⟨0,0,1⟩, 2⟩, ⟨.xny, ⟨0,0,1⟩, 2⟩, ⟨.az, ⟨0,0,1⟩, 2⟩], [[([0, 0, 0],
    0, 0)], [([0, 0], 0, 0)], [([0, 0], 0, 0)], [([0, 0], 0, 0)], [([0, 0], 0, 0), ([0, 12], 0,
    0)], [([0, 0], 0, 0), ([0, 12], 0, 1)], [], [], [], [], [], [], [([0], 0, 0)], [([0], 0, 0)],
    [([0], 0, 0), ([12], 0, 0)], [([0], 0, 0)], [([0], 0, 0)], [], [], [], [], [], [], [], [], [],
    [], [([], 0, 0)]], [13, 15, 3], []⟩
def abs_132 : AbsCert := ⟨[⟨.x0, ⟨0,0,1⟩, 2⟩, ⟨.y0, ⟨0,0,1⟩, 2⟩, ⟨.az, ⟨0,0,1⟩, 2⟩], [[([0, 0, 0],
    0, 0)], [([0, 0], 0, 0), ([0, 12], 0, 0)], [([0, 0], 0, 0), ([0, 12], 0, 1)], [([0, 0], 0, 0)],
    [([0, 0], 0, 0)], [([0, 0], 0, 0)], [], [], [], [], [], [], [([0], 0, 0)], [([0], 0, 0)],
    [([0], 0, 0), ([12], 0, 0)], [([0], 0, 0)], [([0], 0, 0)], [], [], [], [], [], [], [], [], [],
    [], [([], 0, 0)]], [11, 7, 3], []⟩
def abs_133 : AbsCert := ⟨[⟨.z0, ⟨1,1,0⟩, 2⟩, ⟨.x0, ⟨0,1,0⟩, 2⟩, ⟨.y0, ⟨1,0,0⟩, 2⟩, ⟨.xy, ⟨0,0,1⟩,
    2⟩, ⟨.xny, ⟨0,0,1⟩, 2⟩, ⟨.az, ⟨0,0,1⟩, 2⟩], [[([0, 0, 0], 0, 0)], [([0, 0], 0, 0), ([12, 0], 0,
    1)], [([0, 0], 0, 0), ([12, 0], 0, 2)], [([0, 0], 0, 0), ([12, 12], 0, 0)], [([0, 0], 0, 0),
    ([0, 12], 0, 3)], [([0, 0], 0, 0), ([0, 12], 0, 4)], [], [], [], [], [], [], [([0], 0, 0),
    ([12], 0, 0)], [([0], 0, 0), ([12], 0, 0)], [([0], 0, 0), ([12], 0, 3)], [([0], 0, 0)], [([0],
    0, 0)], [], [], [], [], [], [], [], [], [], [], [([], 0, 0)]], [7, 13, 12, 15, 14, 2], [7, 13,
    12, 15, 14, 2]⟩
def abs_134 : AbsCert := ⟨[⟨.z0, ⟨1,1,0⟩, 2⟩, ⟨.x0, ⟨0,1,1⟩, 2⟩, ⟨.y0, ⟨1,0,1⟩, 2⟩, ⟨.az, ⟨0,0,1⟩,
    2⟩], [[([0, 0, 0], 0, 0)], [([0, 0], 0, 0), ([12, 12], 0, 1)], [([0, 0], 0, 0), ([12, 12], 0,
    2)], [([0, 0], 0, 0), ([12, 12], 0, 0)], [([0, 0], 0, 0)], [([0, 0], 0, 0)], [], [], [], [],
    [], [], [([0], 0, 0), ([12], 0, 0)], [([0], 0, 0), ([12], 0, 0)], [([0], 0, 0), ([12], 0, 1)],
    [([0], 0, 0)], [([0], 0, 0)], [], [], [], [], [], [], [], [], [], [], [([], 0, 0)]], [7, 13,
    12, 2], [7, 13, 12, 2]⟩
def abs_135 : AbsCert := ⟨[⟨.x0, ⟨0,1,0⟩, 2⟩, ⟨.y0, ⟨1,0,0⟩, 2⟩, ⟨.xy, ⟨0,0,1⟩, 2⟩, ⟨.xny, ⟨0,0,1⟩,
    2⟩, ⟨.az, ⟨0,0,1⟩, 2⟩, ⟨.ax, ⟨1,0,0⟩, 2⟩, ⟨.ay, ⟨0,1,0⟩, 2⟩], [[([0, 0, 0], 0, 0)], [([0, 0],
    0, 0), ([12, 0], 0, 0)], [([0, 0], 0, 0), ([12, 0], 0, 1)], [([0, 0], 0, 0)], [([0, 0], 0, 0),
    ([0, 12], 0, 2)], [([0, 0], 0, 0), ([0, 12], 0, 3)], [], [], [], [], [], [], [([0], 0, 0),
    ([12], 0, 1)], [([0], 0, 0), ([12], 0, 0)], [([0], 0, 0), ([12], 0, 2)], [([0], 0, 0)], [([0],
    0, 0)], [], [], [], [], [], [], [], [], [], [], [([], 0, 0)]], [11, 7, 13, 15, 3, 7, 4], []⟩
def abs_136 : AbsCert := ⟨[⟨.x0, ⟨0,1,1⟩, 2⟩, ⟨.y0, ⟨1,0,1⟩, 2⟩, ⟨.az, ⟨0,0,1⟩, 2⟩, ⟨.ax, ⟨1,0,0⟩,
    2⟩, ⟨.ay, ⟨0,1,0⟩, 2⟩], [[([0, 0, 0], 0, 0)], [([0, 0], 0, 0), ([12, 12], 0, 0)], [([0, 0], 0,
    0), ([12, 12], 0, 1)], [([0, 0], 0, 0)], [([0, 0], 0, 0)], [([0, 0], 0, 0)], [], [], [], [],
    [], [], [([0], 0, 0), ([12], 0, 1)], [([0], 0, 0), ([12], 0, 0)], [([0], 0, 0), ([12], 0, 0)],
    [([0], 0, 0)], [([0], 0, 0)], [], [], [], [], [], [], [], [], [], [], [([], 0, 0)]], [11, 7, 3,
    7, 4], []⟩
def abs_137 : AbsCert := ⟨[⟨.z0, ⟨1,1,0⟩, 2⟩, ⟨.xy, ⟨0,0,1⟩, 2⟩, ⟨.xny, ⟨0,0,1⟩, 2⟩, ⟨.az, ⟨0,0,1⟩,
    2⟩, ⟨.ax, ⟨1,0,0⟩, 2⟩, ⟨.ay, ⟨0,1,0⟩, 2⟩], [[([0, 0, 0], 0, 0)], [([0, 0], 0, 0)], [([0, 0], 0,
    0)], [([0, 0], 0, 0), ([12, 12], 0, 0)], [([0, 0], 0, 0), ([0, 12], 0, 1)], [([0, 0], 0, 0),
    ([0, 12], 0, 2)], [], [], [], [], [], [], [([0], 0, 0), ([12], 0, 0)], [([0], 0, 0), ([12], 0,
    0)], [([0], 0, 0), ([12], 0, 1)], [([0], 0, 0)], [([0], 0, 0)], [], [], [], [], [], [], [], [],
    [], [], [([], 0, 0)]], [7, 15, 14, 2, 6, 3], [7, 15, 14, 2, 6, 3]⟩
def abs_138 : AbsCert := ⟨[⟨.z0, ⟨1,1,0⟩, 2⟩, ⟨.x0, ⟨0,0,1⟩, 2⟩, ⟨.y0, ⟨0,0,1⟩, 2⟩, ⟨.az, ⟨0,0,1⟩,
    2⟩, ⟨.ax, ⟨1,0,0⟩, 2⟩, ⟨.ay, ⟨0,1,0⟩, 2⟩], [[([0, 0, 0], 0, 0)], [([0, 0], 0, 0), ([0, 12], 0,
    1)], [([0, 0], 0, 0), ([0, 12], 0, 2)], [([0, 0], 0, 0), ([12, 12], 0, 0)], [([0, 0], 0, 0)],
    [([0, 0], 0, 0)], [], [], [], [], [], [], [([0], 0, 0), ([12], 0, 0)], [([0], 0, 0), ([12], 0,
    0)], [([0], 0, 0), ([12], 0, 1)], [([0], 0, 0)], [([0], 0, 0)], [], [], [], [], [], [], [], [],
    [], [], [([], 0, 0)]], [7, 13, 12, 2, 6, 3], [7, 13, 12, 2, 6, 3]⟩
def abs_139 : AbsCert := ⟨[⟨.full, ⟨1,1,1⟩, 2⟩], [[([0, 0, 0], 0, 0), ([12, 12, 12], 0, 0)], [([0,
    0], 0, 0), ([12, 12], 0, 0)], [([0, 0], 0, 0), ([12, 12], 0, 0)], [([0, 0], 0, 0), ([12, 12],
    0, 0)], [([0, 0], 0, 0), ([0, 12], 0, 0)], [([0, 0], 0, 0), ([0, 12], 0, 0)], [], [], [], [],
    [], [], [([0], 0, 0), ([12], 0, 0)], [([0], 0, 0), ([12], 0, 0)], [([0], 0, 0), ([12], 0, 0)],
    [([0], 0, 0)], [([0], 0, 0)], [], [], [], [], [], [], [], [], [], [], [([], 0, 0)]], [2], []⟩
def abs_140 : AbsCert := ⟨[⟨.full, ⟨1,1,1⟩, 2⟩, ⟨.x0, ⟨0,0,1⟩, 2⟩, ⟨.y0, ⟨0,0,1⟩, 2⟩], [[([0, 0,
    0], 0, 0), ([12, 12, 12], 0, 0)], [([0, 0], 0, 0), ([12, 12], 0, 0), ([0, 12], 0, 1), ([12, 0],
    1, 1)], [([0, 0], 0, 0), ([12, 12], 0, 0), ([0, 12], 0, 2), ([12, 0], 1, 2)], [([0, 0], 0, 0),
    ([12, 12], 0, 0)], [([0, 0], 0, 0), ([0, 12], 0, 0)], [([0, 0], 0, 0), ([0, 12], 0, 0)], [],
    [], [], [], [], [], [([0], 0, 0), ([12], 0, 0)], [([0], 0, 0), ([12], 0, 0)], [([0], 0, 0),
    ([12], 0, 0)], [([0], 0, 0)], [([0], 0, 0)], [], [], [], [], [], [], [], [], [], [], [([], 0,
    0)]], [2, 19, 9], []⟩
def abs_141 : AbsCert := ⟨[⟨.full, ⟨1,1,1⟩, 2⟩, ⟨.z0, ⟨1,0,0⟩, 2⟩, ⟨.xy, ⟨2,0,1⟩, 4⟩, ⟨.xny,
    ⟨2,0,1⟩, 4⟩, ⟨.az, ⟨0,0,1⟩, 4⟩], [[([0, 0, 0], 0, 0), ([12, 12, 12], 0, 0)], [([0, 0], 0, 0),
    ([12, 12], 0, 0)], [([0, 0], 0, 0), ([12, 12], 0, 0)], [([0, 0], 0, 0), ([12, 12], 0, 0), ([12,
    0], 0, 1), ([0, 12], 1, 1)], [([0, 0], 0, 0), ([0, 12], 0, 0), ([12, 6], 0, 2), ([12, 18], 1,
    2)], [([0, 0], 0, 0), ([0, 12], 0, 0), ([12, 6], 0, 3), ([12, 18], 1, 3)], [], [], [], [], [],
    [], [([0], 0, 0), ([12], 0, 0)], [([0], 0, 0), ([12], 0, 0)], [([0], 0, 0), ([12], 0, 0), ([6],
    0, 2), ([18], 1, 2)], [([0], 0, 0), ([12], 0, 1)], [([0], 0, 0), ([12], 0, 1)], [], [], [], [],
    [], [], [], [], [], [], [([], 0, 0)]], [1, 12, 30, 28, 3], [1, 12, 30, 28, 3]⟩
def abs_142 : AbsCert := ⟨[⟨.full, ⟨1,1,1⟩, 2⟩, ⟨.z0, ⟨1,0,0⟩, 2⟩, ⟨.x0, ⟨0,0,1⟩, 2⟩, ⟨.y0,
    ⟨0,0,1⟩, 2⟩, ⟨.xy, ⟨2,0,1⟩, 4⟩, ⟨.xny, ⟨2,0,1⟩, 4⟩, ⟨.az, ⟨0,0,1⟩, 4⟩], [[([0, 0, 0], 0, 0),
    ([12, 12, 12], 0, 0)], [([0, 0], 0, 0), ([12, 12], 0, 0), ([0, 12], 0, 2), ([12, 0], 1, 2)],
    [([0, 0], 0, 0), ([12, 12], 0, 0), ([0, 12], 0, 3), ([12, 0], 1, 3)], [([0, 0], 0, 0), ([12,
    12], 0, 0), ([12, 0], 0, 1), ([0, 12], 1, 1)], [([0, 0], 0, 0), ([0, 12], 0, 0), ([12, 6], 0,
    4), ([12, 18], 1, 4)], [([0, 0], 0, 0), ([0, 12], 0, 0), ([12, 6], 0, 5), ([12, 18], 1, 5)],
    [], [], [], [], [], [], [([0], 0, 0), ([12], 0, 0)], [([0], 0, 0), ([12], 0, 0)], [([0], 0, 0),
    ([12], 0, 0), ([6], 0, 4), ([18], 1, 4)], [([0], 0, 0), ([12], 0, 1)], [([0], 0, 0), ([12], 0,
    1)], [], [], [], [], [], [], [], [], [], [], [([], 0, 0)]], [1, 12, 26, 25, 30, 28, 3], [1, 12,
    26, 25, 30, 28, 3]⟩
def abs_143 : AbsCert := ⟨[], [[([0, 0, 0], 0, 0)], [], [], [], [], [], [], [], [], [], [], [], [],
    [], [([0], 0, 0)], [], [], [], [], [], [], [], [], [], [], [], [], []], [], []⟩
def abs_144 : AbsCert := ⟨[⟨.az, ⟨0,0,1⟩, 3⟩], [[([0, 0, 0], 0, 0)], [], [], [], [], [], [], [],
    [], [], [], [], [], [], [([0], 0, 0), ([8], 0, 0), ([16], 1, 0)], [], [], [], [], [], [], [],
    [], [], [], [], [], []], [1], []⟩
def abs_145 : AbsCert := ⟨[⟨.az, ⟨0,0,1⟩, 3⟩], [[([0, 0, 0], 0, 0)], [], [], [], [], [], [], [],
    [], [], [], [], [], [], [([0], 0, 0), ([8], 0, 0), ([16], 1, 0)], [], [], [], [], [], [], [],
    [], [], [], [], [], []], [1], []⟩
def abs_146 : AbsCert := ⟨[⟨.full, ⟨-1,1,1⟩, 3⟩], [[([0, 0, 0], 0, 0), ([16, 8, 8], 0, 0), ([8, 16,
    16], 1, 0)], [], [], [], [], [], [], [], [], [], [], [], [], [], [([0], 0, 0), ([8], 0, 0),
    ([16], 1, 0)], [], [], [], [], [], [], [], [], [], [], [], [], []], [1], []⟩
def abs_147 : AbsCert := ⟨[], [[([0, 0, 0], 0, 0)], [], [], [], [], [], [], [], [], [], [], [], [],
    [], [([0], 0, 0)], [], [], [], [], [], [], [], [], [], [], [], [], [([], 0, 0)]], [], []⟩
def abs_148 : AbsCert := ⟨[⟨.full, ⟨-1,1,1⟩, 3⟩], [[([0, 0, 0], 0, 0), ([16, 8, 8], 0, 0), ([8, 16,
    16], 1, 0)], [], [], [], [], [], [], [], [], [], [], [], [], [], [([0], 0, 0), ([8], 0, 0),
    ([16], 1, 0)], [], [], [], [], [], [], [], [], [], [], [], [], [([], 0, 0)]], [2], []⟩
def abs_149 : AbsCert := ⟨[], [[([0, 0, 0], 0, 0)], [], [], [], [], [], [], [], [], [], [], [],
    [([0], 0, 0)], [([0], 0, 0)], [([0], 0, 0)], [], [([0], 0, 0)], [], [], [], [], [], [], [], [],
    [], [], []], [], []⟩
def abs_150 : AbsCert := ⟨[], [[([0, 0, 0], 0, 0)], [], [], [], [], [], [], [], [], [], [], [], [],
    [], [([0], 0, 0)], [([0], 0, 0)], [], [], [], [], [], [], [], [], [], [([0], 0, 0)], [([0], 0,
    0)], []], [], []⟩
def abs_151 : AbsCert := ⟨[⟨.az, ⟨0,0,1⟩, 3⟩], [[([0, 0, 0], 0, 0)], [], [], [], [], [], [], [],
    [], [], [], [], [([0], 0, 0)], [([0], 0, 0)], [([0], 0, 0), ([8], 0, 0), ([16], 1, 0)], [],
    [([0], 0, 0)], [], [], [], [], [], [], [], [], [], [], []], [1], []⟩
def abs_152 : AbsCert := ⟨[⟨.az, ⟨0,0,1⟩, 3⟩], [[([0, 0, 0], 0, 0)], [], [], [], [], [], [], [],
    [], [], [], [], [], [], [([0], 0, 0), ([8], 0, 0), ([16], 1, 0)], [([0], 0, 0)], [], [], [],
    [], [], [], [], [], [], [([0], 0, 0)], [([0], 0, 0)], []], [1], []⟩
def abs_153 : AbsCert := ⟨[⟨.az, ⟨0,0,1⟩, 3⟩], [[([0, 0, 0], 0, 0)], [], [], [], [], [], [], [],
    [], [], [], [], [([0], 0, 0)], [([0], 0, 0)], [([0], 0, 0), ([8], 0, 0), ([16], 1, 0)], [],
    [([0], 0, 0)], [], [], [], [], [], [], [], [], [], [], []], [1], []⟩
def abs_154 : AbsCert := ⟨[⟨.az, ⟨0,0,1⟩, 3⟩], [[([0, 0, 0], 0, 0)], [], [], [], [], [], [], [],
    [], [], [], [], [], [], [([0], 0, 0), ([8], 0, 0), ([16], 1, 0)], [([0], 0, 0)], [], [], [],
    [], [], [], [], [], [], [([0], 0, 0)], [([0], 0, 0)], []], [1], []⟩
def abs_155 : AbsCert := ⟨[⟨.full, ⟨-1,1,1⟩, 3⟩], [[([0, 0, 0], 0, 0), ([16, 8, 8], 0, 0), ([8, 16,
    16], 1, 0)], [], [], [], [], [], [], [], [], [], [], [], [], [], [([0], 0, 0), ([8], 0, 0),
    ([16], 1, 0)], [([0], 0, 0)], [], [], [], [], [], [], [], [], [], [([0], 0, 0)], [([0], 0, 0)],
    []], [1], []⟩
def abs_156 : AbsCert := ⟨[], [[([0, 0, 0], 0, 0)], [([0, 0], 0, 0)], [([0, 0], 0, 0)], [], [],
    [([0, 0], 0, 0)], [], [], [], [], [], [], [], [], [([0], 0, 0)], [], [], [], [], [], [], [],
    [], [], [], [], [], []], [], []⟩
def abs_157 : AbsCert := ⟨[], [[([0, 0, 0], 0, 0)], [], [], [], [([0, 0], 0, 0)], [], [], [], [],
    [], [([0, 0], 0, 0)], [([0, 0], 0, 0)], [], [], [([0], 0, 0)], [], [], [], [], [], [], [], [],
    [], [], [], [], []], [], []⟩
def abs_158 : AbsCert := ⟨[⟨.x0, ⟨0,0,1⟩, 2⟩, ⟨.y0, ⟨0,0,1⟩, 2⟩, ⟨.xny, ⟨0,0,1⟩, 2⟩], [[([0, 0, 0],
    0, 0)], [([0, 0], 0, 0), ([0, 12], 0, 0)], [([0, 0], 0, 0), ([0, 12], 0, 1)], [], [], [([0, 0],
    0, 0), ([0, 12], 0, 2)], [], [], [], [], [], [], [], [], [([0], 0, 0), ([12], 0, 0)], [], [],
    [], [], [], [], [], [], [], [], [], [], []], [5, 4, 2], []⟩
def abs_159 : AbsCert := ⟨[⟨.xy, ⟨0,0,1⟩, 2⟩, ⟨.x2y, ⟨0,0,1⟩, 2⟩, ⟨.y2x, ⟨0,0,1⟩, 2⟩], [[([0, 0,
    0], 0, 0)], [], [], [], [([0, 0], 0, 0), ([0, 12], 0, 0)], [], [], [], [], [], [([0, 0], 0, 0),
    ([0, 12], 0, 1)], [([0, 0], 0, 0), ([0, 12], 0, 2)], [], [], [([0], 0, 0), ([12], 0, 0)], [],
    [], [], [], [], [], [], [], [], [], [], [], []], [2, 5, 4], []⟩
def abs_160 : AbsCert := ⟨[⟨.full, ⟨-1,1,1⟩, 3⟩], [[([0, 0, 0], 0, 0), ([16, 8, 8], 0, 0), ([8, 16,
    16], 1, 0)], [([0, 0], 0, 0), ([8, 8], 0, 0), ([16, 16], 1, 0)], [([0, 0], 0, 0), ([16, 8], 0,
    0), ([8, 16], 1, 0)], [], [], [([0, 0], 0, 0), ([8, 8], 0, 0), ([16, 16], 1, 0)], [], [], [],
    [], [], [], [], [], [([0], 0, 0), ([8], 0, 0), ([16], 1, 0)], [], [], [], [], [], [], [], [],
    [], [], [], [], []], [1], []⟩
def abs_161 : AbsCert := ⟨[⟨.full, ⟨-1,1,1⟩, 3⟩, ⟨.x0, ⟨0,0,1⟩, 2⟩, ⟨.y0, ⟨0,0,1⟩, 2⟩, ⟨.xny,
    ⟨0,0,1⟩, 2⟩], [[([0, 0, 0], 0, 0), ([16, 8, 8], 0, 0), ([8, 16, 16], 1, 0)], [([0, 0], 0, 0),
    ([8, 8], 0, 0), ([0, 12], 0, 1), ([16, 16], 1, 0), ([8, 20], 1, 1), ([16, 4], 3, 1)], [([0, 0],
    0, 0), ([16, 8], 0, 0), ([0, 12], 0, 2), ([8, 16], 1, 0), ([16, 20], 1, 2), ([8, 4], 3, 2)],
    [], [], [([0, 0], 0, 0), ([8, 8], 0, 0), ([0, 12], 0, 3), ([16, 16], 1, 0), ([8, 20], 1, 3),
    ([16, 4], 3, 3)], [], [], [], [], [], [], [], [], [([0], 0, 0), ([8], 0, 0), ([12], 0, 1),
    ([16], 1, 0), ([20], 1, 1), ([4], 3, 1)], [], [], [], [], [], [], [], [], [], [], [], [], []],
    [1, 15, 10, 3], []⟩
def abs_162 : AbsCert := ⟨[], [[([0, 0, 0], 0, 0)], [], [], [], [([0, 0], 0, 0)], [], [], [], [],
    [], [([0, 0], 0, 0)], [([0, 0], 0, 0)], [([0], 0, 0)], [([0], 0, 0)], [([0], 0, 0)], [], [([0],
    0, 0)], [], [], [], [], [], [], [], [], [], [], [([], 0, 0)]], [], []⟩
def abs_163 : AbsCert := ⟨[⟨.xy, ⟨0,0,1⟩, 2⟩, ⟨.x2y, ⟨0,0,1⟩, 2⟩, ⟨.y2x, ⟨0,0,1⟩, 2⟩], [[([0, 0,
    0], 0, 0)], [], [], [], [([0, 0], 0, 0), ([0, 12], 0, 0)], [], [], [], [], [], [([0, 0], 0, 0),
    ([0, 12], 0, 1)], [([0, 0], 0, 0), ([0, 12], 0, 2)], [([0], 0, 0)], [([0], 0, 0)], [([0], 0,
    0), ([12], 0, 0)], [], [([0], 0, 0)], [], [], [], [], [], [], [], [], [], [], [([], 0, 0)]],
    [5, 11, 9], []⟩
def abs_164 : AbsCert := ⟨[], [[([0, 0, 0], 0, 0)], [([0, 0], 0, 0)], [([0, 0], 0, 0)], [], [],
    [([0, 0], 0, 0)], [], [], [], [], [], [], [], [], [([0], 0, 0)], [([0], 0, 0)], [], [], [], [],
    [], [], [], [], [], [([0], 0, 0)], [([0], 0, 0)], [([], 0, 0)]], [], []⟩
def abs_165 : AbsCert := ⟨[⟨.x0, ⟨0,0,1⟩, 2⟩, ⟨.y0, ⟨0,0,1⟩, 2⟩, ⟨.xny, ⟨0,0,1⟩, 2⟩], [[([0, 0, 0],
    0, 0)], [([0, 0], 0, 0), ([0, 12], 0, 0)], [([0, 0], 0, 0), ([0, 12], 0, 1)], [], [], [([0, 0],
    0, 0), ([0, 12], 0, 2)], [], [], [], [], [], [], [], [], [([0], 0, 0), ([12], 0, 0)], [([0], 0,
    0)], [], [], [], [], [], [], [], [], [], [([0], 0, 0)], [([0], 0, 0)], [([], 0, 0)]], [11, 9,
    5], []⟩
def abs_166 : AbsCert := ⟨[⟨.full, ⟨-1,1,1⟩, 3⟩], [[([0, 0, 0], 0, 0), ([16, 8, 8], 0, 0), ([8, 16,
    16], 1, 0)], [([0, 0], 0, 0), ([8, 8], 0, 0), ([16, 16], 1, 0)], [([0, 0], 0, 0), ([16, 8], 0,
    0), ([8, 16], 1, 0)], [], [], [([0, 0], 0, 0), ([8, 8], 0, 0), ([16, 16], 1, 0)], [], [], [],
    [], [], [], [], [], [([0], 0, 0), ([8], 0, 0), ([16], 1, 0)], [([0], 0, 0)], [], [], [], [],
    [], [], [], [], [], [([0], 0, 0)], [([0], 0, 0)], [([], 0, 0)]], [2], []⟩
def abs_167 : AbsCert := ⟨[⟨.full, ⟨-1,1,1⟩, 3⟩, ⟨.x0, ⟨0,0,1⟩, 2⟩, ⟨.y0, ⟨0,0,1⟩, 2⟩, ⟨.xny,
    ⟨0,0,1⟩, 2⟩], [[([0, 0, 0], 0, 0), ([16, 8, 8], 0, 0), ([8, 16, 16], 1, 0)], [([0, 0], 0, 0),
    ([8, 8], 0, 0), ([0, 12], 0, 1), ([16, 16], 1, 0), ([8, 20], 1, 1), ([16, 4], 3, 1)], [([0, 0],
    0, 0), ([16, 8], 0, 0), ([0, 12], 0, 2), ([8, 16], 1, 0), ([16, 20], 1, 2), ([8, 4], 3, 2)],
    [], [], [([0, 0], 0, 0), ([8, 8], 0, 0), ([0, 12], 0, 3), ([16, 16], 1, 0), ([8, 20], 1, 3),
    ([16, 4], 3, 3)], [], [], [], [], [], [], [], [], [([0], 0, 0), ([8], 0, 0), ([12], 0, 1),
    ([16], 1, 0), ([20], 1, 1), ([4], 3, 1)], [([0], 0, 0)], [], [], [], [], [], [], [], [], [],
    [([0], 0, 0)], [([0], 0, 0)], [([], 0, 0)]], [2, 30, 20, 7], []⟩
def abs_168 : AbsCert := ⟨[], [[([0, 0, 0], 0, 0)], [], [], [], [], [], [], [], [], [], [], [], [],
    [], [([0], 0, 0)], [], [], [], [], [], [], [], [], [], [], [], [], []], [], []⟩
def abs_169 : AbsCert := ⟨[⟨.az, ⟨0,0,1⟩, 6⟩], [[([0, 0, 0], 0, 0)], [], [], [], [], [], [], [],
    [], [], [], [], [], [], [([0], 0, 0), ([4], 0, 0), ([8], 1, 0), ([12], 2, 0), ([16], 3, 0),
    ([20], 4, 0)], [], [], [], [], [], [], [], [], [], [], [], [], []], [4], []⟩
def abs_170 : AbsCert := ⟨[⟨.az, ⟨0,0,1⟩, 6⟩], [[([0, 0, 0], 0, 0)], [], [], [], [], [], [], [],
    [], [], [], [], [], [], [([0], 0, 0), ([4], 0, 0), ([8], 1, 0), ([12], 2, 0), ([16], 3, 0),
    ([20], 4, 0)], [], [], [], [], [], [], [], [], [], [], [], [], []], [4], []⟩
def abs_171 : AbsCert := ⟨[⟨.az, ⟨0,0,1⟩, 3⟩], [[([0, 0, 0], 0, 0)], [], [], [], [], [], [], [],
    [], [], [], [], [], [], [([0], 0, 0), ([8], 0, 0), ([16], 1, 0)], [], [], [], [], [], [], [],
    [], [], [], [], [], []], [1], []⟩
def abs_172 : AbsCert := ⟨[⟨.az, ⟨0,0,1⟩, 3⟩], [[([0, 0, 0], 0, 0)], [], [], [], [], [], [], [],
    [], [], [], [], [], [], [([0], 0, 0), ([8], 0, 0), ([16], 1, 0)], [], [], [], [], [], [], [],
    [], [], [], [], [], []], [1], []⟩
def abs_173 : AbsCert := ⟨[⟨.az, ⟨0,0,1⟩, 2⟩], [[([0, 0, 0], 0, 0)], [], [], [], [], [], [], [],
    [], [], [], [], [], [], [([0], 0, 0), ([12], 0, 0)], [], [], [], [], [], [], [], [], [], [],
    [], [], []], [2], []⟩
def abs_174 : AbsCert := ⟨[], [[([0, 0, 0], 0, 0)], [], [], [([0, 0], 0, 0)], [], [], [], [], [],
    [], [], [], [], [], [([0], 0, 0)], [], [], [], [], [], [], [], [], [], [], [], [], [([], 0,
    0)]], [], []⟩
def abs_175 : AbsCert := ⟨[], [[([0, 0, 0], 0, 0)], [], [], [([0, 0], 0, 0)], [], [], [], [], [],
    [], [], [], [], [], [([0], 0, 0)], [], [], [], [], [], [], [], [], [], [], [], [], [([], 0,
    0)]], [], []⟩
def abs_176 : AbsCert := ⟨[⟨.az, ⟨0,0,1⟩, 2⟩], [[([0, 0, 0], 0, 0)], [], [], [([0, 0], 0, 0)], [],
    [], [], [], [], [], [], [], [], [], [([0], 0, 0), ([12], 0, 0)], [], [], [], [], [], [], [],
    [], [], [], [], [], [([], 0, 0)]], [3], []⟩
def abs_177 : AbsCert := ⟨[], [[([0, 0, 0], 0, 0)], [], [], [], [], [], [], [], [], [], [], [],
    [([0], 0, 0)], [([0], 0, 0)], [([0], 0, 0)], [([0], 0, 0)], [([0], 0, 0)], [], [], [], [], [],
    [], [], [], [([0], 0, 0)], [([0], 0, 0)], []], [], []⟩
def abs_178 : AbsCert := ⟨[⟨.az, ⟨0,0,1⟩, 6⟩], [[([0, 0, 0], 0, 0)], [], [], [], [], [], [], [],
    [], [], [], [], [([0], 0, 0)], [([0], 0, 0)], [([0], 0, 0), ([4], 0, 0), ([8], 1, 0), ([12], 2,
    0), ([16], 3, 0), ([20], 4, 0)], [([0], 0, 0)], [([0], 0, 0)], [], [], [], [], [], [], [], [],
    [([0], 0, 0)], [([0], 0, 0)], []], [5], []⟩
def abs_179 : AbsCert := ⟨[⟨.az, ⟨0,0,1⟩, 6⟩], [[([0, 0, 0], 0, 0)], [], [], [], [], [], [], [],
    [], [], [], [], [([0], 0, 0)], [([0], 0, 0)], [([0], 0, 0), ([4], 0, 0), ([8], 1, 0), ([12], 2,
    0), ([16], 3, 0), ([20], 4, 0)], [([0], 0, 0)], [([0], 0, 0)], [], [], [], [], [], [], [], [],
    [([0], 0, 0)], [([0], 0, 0)], []], [5], []⟩
def abs_180 : AbsCert := ⟨[⟨.az, ⟨0,0,1⟩, 3⟩], [[([0, 0, 0], 0, 0)], [], [], [], [], [], [], [],
    [], [], [], [], [([0], 0, 0)], [([0], 0, 0)], [([0], 0, 0), ([8], 0, 0), ([16], 1, 0)], [([0],
    0, 0)], [([0], 0, 0)], [], [], [], [], [], [], [], [], [([0], 0, 0)], [([0], 0, 0)], []], [1],
    []⟩
def abs_181 : AbsCert := ⟨[⟨.az, ⟨0,0,1⟩, 3⟩], [[([0, 0, 0], 0, 0)], [], [], [], [], [], [], [],
    [], [], [], [], [([0], 0, 0)], [([0], 0, 0)], [([0], 0, 0), ([8], 0, 0), ([16], 1, 0)], [([0],
    0, 0)], [([0], 0, 0)], [], [], [], [], [], [], [], [], [([0], 0, 0)], [([0], 0, 0)], []], [1],
    []⟩
def abs_182 : AbsCert := ⟨[⟨.az, ⟨0,0,1⟩, 2⟩], [[([0, 0, 0], 0, 0)], [], [], [], [], [], [], [],
    [], [], [], [], [([0], 0, 0)], [([0], 0, 0)], [([0], 0, 0), ([12], 0, 0)], [([0], 0, 0)],
    [([0], 0, 0)], [], [], [], [], [], [], [], [], [([0], 0, 0)], [([0], 0, 0)], []], [2], []⟩
def abs_183 : AbsCert := ⟨[], [[([0, 0, 0], 0, 0)], [([0, 0], 0, 0)], [([0, 0], 0, 0)], [], [([0,
    0], 0, 0)], [([0, 0], 0, 0)], [], [], [], [], [([0, 0], 0, 0)], [([0, 0], 0, 0)], [], [],
    [([0], 0, 0)], [], [], [], [], [], [], [], [], [], [], [], [], []], [], []⟩
def abs_184 : AbsCert := ⟨[⟨.x0, ⟨0,0,1⟩, 2⟩, ⟨.y0, ⟨0,0,1⟩, 2⟩, ⟨.xny, ⟨0,0,1⟩, 2⟩, ⟨.xy, ⟨0,0,1⟩,
    2⟩, ⟨.x2y, ⟨0,0,1⟩, 2⟩, ⟨.y2x, ⟨0,0,1⟩, 2⟩], [[([0, 0, 0], 0, 0)], [([0, 0], 0, 0), ([0, 12],
    0, 0)], [([0, 0], 0, 0), ([0, 12], 0, 1)], [], [([0, 0], 0, 0), ([0, 12], 0, 3)], [([0, 0], 0,
    0), ([0, 12], 0, 2)], [], [], [], [], [([0, 0], 0, 0), ([0, 12], 0, 4)], [([0, 0], 0, 0), ([0,
    12], 0, 5)], [], [], [([0], 0, 0), ([12], 0, 0)], [], [], [], [], [], [], [], [], [], [], [],
    [], []], [8, 6, 3, 9, 11, 10], []⟩
def abs_185 : AbsCert := ⟨[⟨.x0, ⟨0,0,1⟩, 2⟩, ⟨.y0, ⟨0,0,1⟩, 2⟩, ⟨.xny, ⟨0,0,1⟩, 2⟩, ⟨.az, ⟨0,0,1⟩,
    2⟩], [[([0, 0, 0], 0, 0)], [([0, 0], 0, 0), ([0, 12], 0, 0)], [([0, 0], 0, 0), ([0, 12], 0,
    1)], [], [([0, 0], 0, 0)], [([0, 0], 0, 0), ([0, 12], 0, 2)], [], [], [], [], [([0, 0], 0, 0)],
    [([0, 0], 0, 0)], [], [], [([0], 0, 0), ([12], 0, 0)], [], [], [], [], [], [], [], [], [], [],
    [], [], []], [8, 6, 3, 2], []⟩
def abs_186 : AbsCert := ⟨[⟨.xy, ⟨0,0,1⟩, 2⟩, ⟨.x2y, ⟨0,0,1⟩, 2⟩, ⟨.y2x, ⟨0,0,1⟩, 2⟩, ⟨.az,
    ⟨0,0,1⟩, 2⟩], [[([0, 0, 0], 0, 0)], [([0, 0], 0, 0)], [([0, 0], 0, 0)], [], [([0, 0], 0, 0),
    ([0, 12], 0, 0)], [([0, 0], 0, 0)], [], [], [], [], [([0, 0], 0, 0), ([0, 12], 0, 1)], [([0,
    0], 0, 0), ([0, 12], 0, 2)], [], [], [([0], 0, 0), ([12], 0, 0)], [], [], [], [], [], [], [],
    [], [], [], [], [], []], [9, 11, 10, 2], []⟩
def abs_187 : AbsCert := ⟨[], [[([0, 0, 0], 0, 0)], [([0, 0], 0, 0)], [([0, 0], 0, 0)], [([0, 0],
    0, 0)], [], [([0, 0], 0, 0)], [], [], [], [], [], [], [([0], 0, 0)], [([0], 0, 0)], [([0], 0,
    0)], [], [([0], 0, 0)], [], [], [], [], [], [], [], [], [], [], [([], 0, 0)]], [], []⟩
def abs_188 : AbsCert := ⟨[⟨.x0, ⟨0,0,1⟩, 2⟩, ⟨.y0, ⟨0,0,1⟩, 2⟩, ⟨.xny, ⟨0,0,1⟩, 2⟩], [[([0, 0, 0],
    0, 0)], [([0, 0], 0, 0), ([0, 12], 0, 0)], [([0, 0], 0, 0), ([0, 12], 0, 1)], [([0, 0], 0, 0)],
    [], [([0, 0], 0, 0), ([0, 12], 0, 2)], [], [], [], [], [], [], [([0], 0, 0)], [([0], 0, 0)],
    [([0], 0, 0), ([12], 0, 0)], [], [([0], 0, 0)], [], [], [], [], [], [], [], [], [], [], [([],
    0, 0)]], [8, 6, 3], []⟩
def abs_189 : AbsCert := ⟨[], [[([0, 0, 0], 0, 0)], [], [], [([0, 0], 0, 0)], [([0, 0], 0, 0)], [],
    [], [], [], [], [([0, 0], 0, 0)], [([0, 0], 0, 0)], [], [], [([0], 0, 0)], [([0], 0, 0)], [],
    [], [], [], [], [], [], [], [], [([0], 0, 0)], [([0], 0, 0)], [([], 0, 0)]], [], []⟩
def abs_190 : AbsCert := ⟨[⟨.xy, ⟨0,0,1⟩, 2⟩, ⟨.x2y, ⟨0,0,1⟩, 2⟩, ⟨.y2x, ⟨0,0,1⟩, 2⟩], [[([0, 0,
    0], 0, 0)], [], [], [([0, 0], 0, 0)], [([0, 0], 0, 0), ([0, 12], 0, 0)], [], [], [], [], [],
    [([0, 0], 0, 0), ([0, 12], 0, 1)], [([0, 0], 0, 0), ([0, 12], 0, 2)], [], [], [([0], 0, 0),
    ([12], 0, 0)], [([0], 0, 0)], [], [], [], [], [], [], [], [], [], [([0], 0, 0)], [([0], 0, 0)],
    [([], 0, 0)]], [9, 11, 10], []⟩
def abs_191 : AbsCert := ⟨[], [[([0, 0, 0], 0, 0)], [([0, 0], 0, 0)], [([0, 0], 0, 0)], [([0, 0],
    0, 0)], [([0, 0], 0, 0)], [([0, 0], 0, 0)], [], [], [], [], [([0, 0], 0, 0)], [([0, 0], 0, 0)],
    [([0], 0, 0)], [([0], 0, 0)], [([0], 0, 0)], [([0], 0, 0)], [([0], 0, 0)], [], [], [], [], [],
    [], [], [], [([0], 0, 0)], [([0], 0, 0)], [([], 0, 0)]], [], []⟩
def abs_192 : AbsCert := ⟨[⟨.x0, ⟨0,0,1⟩, 2⟩, ⟨.y0, ⟨0,0,1⟩, 2⟩, ⟨.xny, ⟨0,0,1⟩, 2⟩, ⟨.xy, ⟨0,0,1⟩,
    2⟩, ⟨.x2y, ⟨0,0,1⟩, 2⟩, ⟨.y2x, ⟨0,0,1⟩, 2⟩], [[([0, 0, 0], 0, 0)], [([0, 0], 0, 0), ([0, 12],
    0, 0)], [([0, 0], 0, 0), ([0, 12], 0, 1)], [([0, 0], 0, 0)], [([0, 0], 0, 0), ([0, 12], 0, 3)],
    [([0, 0], 0, 0), ([0, 12], 0, 2)], [], [], [], [], [([0, 0], 0, 0), ([0, 12], 0, 4)], [([0, 0],
    0, 0), ([0, 12], 0, 5)], [([0], 0, 0)], [([0], 0, 0)], [([0], 0, 0), ([12], 0, 0)], [([0], 0,
    0)], [([0], 0, 0)], [], [], [], [], [], [], [], [], [([0], 0, 0)], [([0], 0, 0)], [([], 0,
    0)]], [17, 13, 7, 19, 23, 21], []⟩
def abs_193 : AbsCert := ⟨[⟨.x0, ⟨0,0,1⟩, 2⟩, ⟨.y0, ⟨0,0,1⟩, 2⟩, ⟨.xny, ⟨0,0,1⟩, 2⟩, ⟨.az, ⟨0,0,1⟩,
    2⟩], [[([0, 0, 0], 0, 0)], [([0, 0], 0, 0), ([0, 12], 0, 0)], [([0, 0], 0, 0), ([0, 12], 0,
    1)], [([0, 0], 0, 0)], [([0, 0], 0, 0)], [([0, 0], 0, 0), ([0, 12], 0, 2)], [], [], [], [],
    [([0, 0], 0, 0)], [([0, 0], 0, 0)], [([0], 0, 0)], [([0], 0, 0)], [([0], 0, 0), ([12], 0, 0)],
    [([0], 0, 0)], [([0], 0, 0)], [], [], [], [], [], [], [], [], [([0], 0, 0)], [([0], 0, 0)],
    [([], 0, 0)]], [17, 13, 7, 3], []⟩
def abs_194 : AbsCert := ⟨[⟨.xy, ⟨0,0,1⟩, 2⟩, ⟨.x2y, ⟨0,0,1⟩, 2⟩, ⟨.y2x, ⟨0,0,1⟩, 2⟩, ⟨.az,
    ⟨0,0,1⟩, 2⟩], [[([0, 0, 0], 0, 0)], [([0, 0], 0, 0)], [([0, 0], 0, 0)], [([0, 0], 0, 0)], [([0,
    0], 0, 0), ([0, 12], 0, 0)], [([0, 0], 0, 0)], [], [], [], [], [([0, 0], 0, 0), ([0, 12], 0,
    1)], [([0, 0], 0, 0), ([0, 12], 0, 2)], [([0], 0, 0)], [([0], 0, 0)], [([0], 0, 0), ([12], 0,
    0)], [([0], 0, 0)], [([0], 0, 0)], [], [], [], [], [], [], [], [], [([0], 0, 0)], [([0], 0,
    0)], [([], 0, 0)]], [19, 23, 21, 3], []⟩
def abs_195 : AbsCert := ⟨[], [[([0, 0, 0], 0, 0)], [], [], [], [], [], [], [], [], [], [], [],
    [([0], 0, 0)], [([0], 0, 0)], [([0], 0, 0)], [], [], [], [], [], [], [([0], 0, 0)], [([0], 0,
    0)], [([0], 0, 0)], [([0], 0, 0)], [], [], []], [], []⟩
def abs_196 : AbsCert := ⟨[⟨.full, ⟨1,1,0⟩, 2⟩, ⟨.full, ⟨0,1,1⟩, 2⟩], [[([0, 0, 0], 0, 0), ([12,
    12, 0], 0, 0), ([0, 12, 12], 0, 1), ([12, 0, 12], 1, 1)], [], [], [], [], [], [], [], [], [],
    [], [], [([0], 0, 0), ([12], 0, 0)], [([0], 0, 0), ([12], 0, 0)], [([0], 0, 0), ([12], 0, 1)],
    [], [], [], [], [], [], [([0], 0, 0)], [([0], 0, 0)], [([0], 0, 0)], [([0], 0, 0)], [], [],
    []], [6, 1], []⟩
def abs_197 : AbsCert := ⟨[⟨.full, ⟨1,1,1⟩, 2⟩], [[([0, 0, 0], 0, 0), ([12, 12, 12], 0, 0)], [],
    [], [], [], [], [], [], [], [], [], [], [([0], 0, 0), ([12], 0, 0)], [([0], 0, 0), ([12], 0,
    0)], [([0], 0, 0), ([12], 0, 0)], [], [], [], [], [], [], [([0], 0, 0), ([12], 0, 0)], [([0],
    0, 0), ([12], 0, 0)], [([0], 0, 0), ([12], 0, 0)], [([0], 0, 0), ([12], 0, 0)], [], [], []],
    [1], []⟩
def abs_198 : AbsCert := ⟨[⟨.az, ⟨0,0,1⟩, 2⟩, ⟨.ay, ⟨0,1,0⟩, 2⟩, ⟨.ax, ⟨1,0,0⟩, 2⟩], [[([0, 0, 0],
    0, 0)], [], [], [], [], [], [], [], [], [], [], [], [([0], 0, 0), ([12], 0, 2)], [([0], 0, 0),
    ([12], 0, 1)], [([0], 0, 0), ([12], 0, 0)], [], [], [], [], [], [], [([0], 0, 0)], [([0], 0,
    0)], [([0], 0, 0)], [([0], 0, 0)], [], [], []], [1, 2, 4], []⟩
def abs_199 : AbsCert := ⟨[⟨.full, ⟨1,1,1⟩, 2⟩, ⟨.az, ⟨0,0,1⟩, 2⟩, ⟨.ay, ⟨0,1,0⟩, 2⟩, ⟨.ax,
    ⟨1,0,0⟩, 2⟩], [[([0, 0, 0], 0, 0), ([12, 12, 12], 0, 0)], [], [], [], [], [], [], [], [], [],
    [], [], [([0], 0, 0), ([12], 0, 0)], [([0], 0, 0), ([12], 0, 0)], [([0], 0, 0), ([12], 0, 0)],
    [], [], [], [], [], [], [([0], 0, 0), ([12], 0, 0)], [([0], 0, 0), ([12], 0, 0)], [([0], 0, 0),
    ([12], 0, 0)], [([0], 0, 0), ([12], 0, 0)], [], [], []], [1, 1, 1, 1], []⟩
def abs_200 : AbsCert := ⟨[], [[([0, 0, 0], 0, 0)], [([0, 0], 0, 0)], [([0, 0], 0, 0)], [([0, 0],
    0, 0)], [], [], [], [], [], [], [], [], [([0], 0, 0)], [([0], 0, 0)], [([0], 0, 0)], [], [],
    [], [], [], [], [([0], 0, 0)], [([0], 0, 0)], [([0], 0, 0)], [([0], 0, 0)], [], [], [([], 0,
    0)]], [], []⟩
def abs_201 : AbsCert := ⟨[⟨.x0, ⟨0,1,1⟩, 2⟩, ⟨.y0, ⟨1,0,1⟩, 2⟩, ⟨.z0, ⟨1,1,0⟩, 2⟩], [[([0, 0, 0],
    0, 0)], [([0, 0], 0, 0), ([12, 12], 0, 0)], [([0, 0], 0, 0), ([12, 12], 0, 1)], [([0, 0], 0,
    0), ([12, 12], 0, 2)], [], [], [], [], [], [], [], [], [([0], 0, 0), ([12], 0, 1)], [([0], 0,
    0), ([12], 0, 0)], [([0], 0, 0), ([12], 0, 0)], [], [], [], [], [], [], [([0], 0, 0)], [([0],
    0, 0)], [([0], 0, 0)], [([0], 0, 0)], [], [], [([], 0, 0)]], [11, 9, 7], [11, 9, 7]⟩
def abs_202 : AbsCert := ⟨[⟨.full, ⟨1,1,0⟩, 2⟩, ⟨.full, ⟨0,1,1⟩, 2⟩], [[([0, 0, 0], 0, 0), ([12,
    12, 0], 0, 0), ([0, 12, 12], 0, 1), ([12, 0, 12], 1, 1)], [([0, 0], 0, 0), ([12, 0], 0, 0),
    ([12, 12], 0, 1), ([0, 12], 1, 1)], [([0, 0], 0, 0), ([12, 0], 0, 0), ([0, 12], 0, 1), ([12,
    12], 1, 1)], [([0, 0], 0, 0), ([12, 12], 0, 0), ([0, 12], 0, 1), ([12, 0], 1, 1)], [], [], [],
    [], [], [], [], [], [([0], 0, 0), ([12], 0, 0)], [([0], 0, 0), ([12], 0, 0)], [([0], 0, 0),
    ([12], 0, 1)], [], [], [], [], [], [], [([0], 0, 0)], [([0], 0, 0)], [([0], 0, 0)], [([0], 0,
    0)], [], [], [([], 0, 0)]], [12, 2], []⟩
def abs_203 : AbsCert := ⟨[⟨.full, ⟨1,1,0⟩, 2⟩, ⟨.full, ⟨0,1,1⟩, 2⟩, ⟨.x0, ⟨0,1,1⟩, 4⟩, ⟨.y0,
    ⟨1,0,1⟩, 4⟩, ⟨.z0, ⟨1,1,0⟩, 4⟩], [[([0, 0, 0], 0, 0), ([12, 12, 0], 0, 0), ([0, 12, 12], 0, 1),
    ([12, 0, 12], 1, 1)], [([0, 0], 0, 0), ([12, 0], 0, 0), ([12, 12], 0, 1), ([6, 6], 0, 2), ([0,
    12], 1, 1), ([18, 6], 1, 2), ([18, 18], 2, 2), ([6, 18], 4, 2)], [([0, 0], 0, 0), ([12, 0], 0,
    0), ([0, 12], 0, 1), ([6, 6], 0, 3), ([12, 12], 1, 1), ([18, 6], 1, 3), ([6, 18], 2, 3), ([18,
    18], 4, 3)], [([0, 0], 0, 0), ([12, 12], 0, 0), ([0, 12], 0, 1), ([6, 6], 0, 4), ([12, 0], 1,
    1), ([18, 18], 1, 4), ([6, 18], 2, 4), ([18, 6], 4, 4)], [], [], [], [], [], [], [], [], [([0],
    0, 0), ([12], 0, 0), ([6], 0, 3), ([18], 1, 3)], [([0], 0, 0), ([12], 0, 0), ([6], 0, 2),
    ([18], 1, 2)], [([0], 0, 0), ([12], 0, 1), ([6], 0, 2), ([18], 1, 2)], [], [], [], [], [], [],
    [([0], 0, 0)], [([0], 0, 0)], [([0], 0, 0)], [([0], 0, 0)], [], [], [([], 0, 0)]], [7, 1, 41,
    33, 22], [7, 1, 41, 33, 22]⟩
def abs_204 : AbsCert := ⟨[⟨.full, ⟨1,1,1⟩, 2⟩], [[([0, 0, 0], 0, 0), ([12, 12, 12], 0, 0)], [([0,
    0], 0, 0), ([12, 12], 0, 0)], [([0, 0], 0, 0), ([12, 12], 0, 0)], [([0, 0], 0, 0), ([12, 12],
    0, 0)], [], [], [], [], [], [], [], [], [([0], 0, 0), ([12], 0, 0)], [([0], 0, 0), ([12], 0,
    0)], [([0], 0, 0), ([12], 0, 0)], [], [], [], [], [], [], [([0], 0, 0), ([12], 0, 0)], [([0],
    0, 0), ([12], 0, 0)], [([0], 0, 0), ([12], 0, 0)], [([0], 0, 0), ([12], 0, 0)], [], [], [([],
    0, 0)]], [2], []⟩
def abs_205 : AbsCert := ⟨[⟨.x0, ⟨0,1,0⟩, 2⟩, ⟨.y0, ⟨0,0,1⟩, 2⟩, ⟨.z0, ⟨1,0,0⟩, 2⟩, ⟨.az, ⟨0,0,1⟩,
    2⟩, ⟨.ay, ⟨0,1,0⟩, 2⟩, ⟨.ax, ⟨1,0,0⟩, 2⟩], [[([0, 0, 0], 0, 0)], [([0, 0], 0, 0), ([12, 0], 0,
    0)], [([0, 0], 0, 0), ([0, 12], 0, 1)], [([0, 0], 0, 0), ([12, 0], 0, 2)], [], [], [], [], [],
    [], [], [], [([0], 0, 0), ([12], 0, 2)], [([0], 0, 0), ([12], 0, 0)], [([0], 0, 0), ([12], 0,
    1)], [], [], [], [], [], [], [([0], 0, 0)], [([0], 0, 0)], [([0], 0, 0)], [([0], 0, 0)], [],
    [], [([], 0, 0)]], [10, 6, 5, 2, 3, 5], []⟩
def abs_206 : AbsCert := ⟨[⟨.full, ⟨1,1,1⟩, 2⟩, ⟨.x0, ⟨0,1,0⟩, 2⟩, ⟨.x0, ⟨0,0,1⟩, 2⟩, ⟨.y0,
    ⟨1,0,0⟩, 2⟩, ⟨.y0, ⟨0,0,1⟩, 2⟩, ⟨.z0, ⟨1,0,0⟩, 2⟩, ⟨.az, ⟨0,0,1⟩, 2⟩, ⟨.ay, ⟨0,1,0⟩, 2⟩, ⟨.ax,
    ⟨1,0,0⟩, 2⟩], [[([0, 0, 0], 0, 0), ([12, 12, 12], 0, 0)], [([0, 0], 0, 0), ([12, 12], 0, 0),
    ([12, 0], 0, 1), ([0, 12], 0, 2)], [([0, 0], 0, 0), ([12, 12], 0, 0), ([12, 0], 0, 3), ([0,
    12], 0, 4)], [([0, 0], 0, 0), ([12, 12], 0, 0), ([12, 0], 0, 5), ([0, 12], 1, 5)], [], [], [],
    [], [], [], [], [], [([0], 0, 0), ([12], 0, 0)], [([0], 0, 0), ([12], 0, 0)], [([0], 0, 0),
    ([12], 0, 0)], [], [], [], [], [], [], [([0], 0, 0), ([12], 0, 0)], [([0], 0, 0), ([12], 0,
    0)], [([0], 0, 0), ([12], 0, 0)], [([0], 0, 0), ([12], 0, 0)], [], [], [([], 0, 0)]], [2, 18,
    22, 14, 8, 7, 2, 2, 2], []⟩
def abs_207 : AbsCert := ⟨[], [[([0, 0, 0], 0, 0)], [], [], [], [], [], [], [], [], [], [], [],
    [([0], 0, 0)], [([0], 0, 0)], [([0], 0, 0)], [([0], 0, 0)], [([0], 0, 0)], [([0], 0, 0)],
    [([0], 0, 0)], [([0], 0, 0)], [([0], 0, 0)], [([0], 0, 0)], [([0], 0, 0)], [([0], 0, 0)],
    [([0], 0, 0)], [], [], []], [], []⟩
def abs_208 : AbsCert := ⟨[⟨.az, ⟨0,0,1⟩, 2⟩, ⟨.ay, ⟨0,1,0⟩, 2⟩, ⟨.ax, ⟨1,0,0⟩, 2⟩], [[([0, 0, 0],
    0, 0)], [], [], [], [], [], [], [], [], [], [], [], [([0], 0, 0), ([12], 0, 2)], [([0], 0, 0),
    ([12], 0, 1)], [([0], 0, 0), ([12], 0, 0)], [([0], 0, 0)], [([0], 0, 0)], [([0], 0, 0)], [([0],
    0, 0)], [([0], 0, 0)], [([0], 0, 0)], [([0], 0, 0)], [([0], 0, 0)], [([0], 0, 0)], [([0], 0,
    0)], [], [], []], [9, 13, 20], []⟩
def abs_209 : AbsCert := ⟨[⟨.full, ⟨1,1,0⟩, 2⟩, ⟨.full, ⟨0,1,1⟩, 2⟩], [[([0, 0, 0], 0, 0), ([12,
    12, 0], 0, 0), ([0, 12, 12], 0, 1), ([12, 0, 12], 1, 1)], [], [], [], [], [], [], [], [], [],
    [], [], [([0], 0, 0), ([12], 0, 0)], [([0], 0, 0), ([12], 0, 0)], [([0], 0, 0), ([12], 0, 1)],
    [([0], 0, 0), ([12], 0, 1)], [([0], 0, 0), ([12], 0, 1)], [([0], 0, 0), ([12], 0, 0)], [([0],
    0, 0), ([12], 0, 0)], [([0], 0, 0), ([12], 0, 0)], [([0], 0, 0), ([12], 0, 0)], [([0], 0, 0)],
    [([0], 0, 0)], [([0], 0, 0)], [([0], 0, 0)], [], [], []], [7, 1], []⟩
def abs_210 : AbsCert := ⟨[⟨.full, ⟨1,1,0⟩, 2⟩, ⟨.full, ⟨0,1,1⟩, 2⟩, ⟨.az, ⟨0,0,1⟩, 4⟩, ⟨.ay,
    ⟨0,1,0⟩, 4⟩, ⟨.ax, ⟨1,0,0⟩, 4⟩], [[([0, 0, 0], 0, 0), ([12, 12, 0], 0, 0), ([0, 12, 12], 0, 1),
    ([12, 0, 12], 1, 1)], [], [], [], [], [], [], [], [], [], [], [], [([0], 0, 0), ([12], 0, 0),
    ([6], 0, 4), ([18], 1, 4)], [([0], 0, 0), ([12], 0, 0), ([6], 0, 3), ([18], 1, 3)], [([0], 0,
    0), ([12], 0, 1), ([6], 0, 2), ([18], 1, 2)], [([0], 0, 0), ([12], 0, 1)], [([0], 0, 0), ([12],
    0, 1)], [([0], 0, 0), ([12], 0, 0)], [([0], 0, 0), ([12], 0, 0)], [([0], 0, 0), ([12], 0, 0)],
    [([0], 0, 0), ([12], 0, 0)], [([0], 0, 0)], [([0], 0, 0)], [([0], 0, 0)], [([0], 0, 0)], [],
    [], []], [7, 1, 33, 49, 80], []⟩
def abs_211 : AbsCert := ⟨[⟨.full, ⟨1,1,1⟩, 2⟩], [[([0, 0, 0], 0, 0), ([12, 12, 12], 0, 0)], [],
    [], [], [], [], [], [], [], [], [], [], [([0], 0, 0), ([12], 0, 0)], [([0], 0, 0), ([12], 0,
    0)], [([0], 0, 0), ([12], 0, 0)], [([0], 0, 0)], [([0], 0, 0)], [([0], 0, 0)], [([0], 0, 0)],
    [([0], 0, 0)], [([0], 0, 0)], [([0], 0, 0), ([12], 0, 0)], [([0], 0, 0), ([12], 0, 0)], [([0],
    0, 0), ([12], 0, 0)], [([0], 0, 0), ([12], 0, 0)], [], [], []], [1], []⟩
def abs_212 : AbsCert := ⟨[⟨.az, ⟨0,0,1⟩, 4⟩, ⟨.ay, ⟨0,1,0⟩, 4⟩, ⟨.ax, ⟨1,0,0⟩, 4⟩], [[([0, 0, 0],
    0, 0)], [], [], [], [], [], [], [], [], [], [], [], [([0], 0, 0), ([6], 0, 2), ([12], 1, 2),
    ([18], 2, 2)], [([0], 0, 0), ([6], 0, 1), ([12], 1, 1), ([18], 2, 1)], [([0], 0, 0), ([6], 0,
    0), ([12], 1, 0), ([18], 2, 0)], [([0], 0, 0)], [([0], 0, 0)], [([0], 0, 0)], [([0], 0, 0)],
    [([0], 0, 0)], [([0], 0, 0)], [([0], 0, 0)], [([0], 0, 0)], [([0], 0, 0)], [([0], 0, 0)], [],
    [], []], [9, 13, 20], []⟩
def abs_213 : AbsCert := ⟨[⟨.az, ⟨0,0,1⟩, 4⟩, ⟨.ay, ⟨0,1,0⟩, 4⟩, ⟨.ax, ⟨1,0,0⟩, 4⟩], [[([0, 0, 0],
    0, 0)], [], [], [], [], [], [], [], [], [], [], [], [([0], 0, 0), ([6], 0, 2), ([12], 1, 2),
    ([18], 2, 2)], [([0], 0, 0), ([6], 0, 1), ([12], 1, 1), ([18], 2, 1)], [([0], 0, 0), ([6], 0,
    0), ([12], 1, 0), ([18], 2, 0)], [([0], 0, 0)], [([0], 0, 0)], [([0], 0, 0)], [([0], 0, 0)],
    [([0], 0, 0)], [([0], 0, 0)], [([0], 0, 0)], [([0], 0, 0)], [([0], 0, 0)], [([0], 0, 0)], [],
    [], []], [9, 13, 20], []⟩
def abs_214 : AbsCert := ⟨[⟨.full, ⟨1,1,1⟩, 2⟩, ⟨.az, ⟨0,0,1⟩, 4⟩, ⟨.ay, ⟨0,1,0⟩, 4⟩, ⟨.ax,
    ⟨1,0,0⟩, 4⟩], [[([0, 0, 0], 0, 0), ([12, 12, 12], 0, 0)], [], [], [], [], [], [], [], [], [],
    [], [], [([0], 0, 0), ([12], 0, 0), ([6], 0, 3), ([18], 1, 3)], [([0], 0, 0), ([12], 0, 0),
    ([6], 0, 2), ([18], 1, 2)], [([0], 0, 0), ([12], 0, 0), ([6], 0, 1), ([18], 1, 1)], [([0], 0,
    0)], [([0], 0, 0)], [([0], 0, 0)], [([0], 0, 0)], [([0], 0, 0)], [([0], 0, 0)], [([0], 0, 0),
    ([12], 0, 0)], [([0], 0, 0), ([12], 0, 0)], [([0], 0, 0), ([12], 0, 0)], [([0], 0, 0), ([12],
    0, 0)], [], [], []], [1, 17, 25, 40], []⟩
def abs_215 : AbsCert := ⟨[], [[([0, 0, 0], 0, 0)], [], [], [], [([0, 0], 0, 0)], [([0, 0], 0, 0)],
    [([0, 0], 0, 0)], [([0, 0], 0, 0)], [([0, 0], 0, 0)], [([0, 0], 0, 0)], [], [], [([0], 0, 0)],
    [([0], 0, 0)], [([0], 0, 0)], [], [], [], [], [], [], [([0], 0, 0)], [([0], 0, 0)], [([0], 0,
    0)], [([0], 0, 0)], [], [], [([], 0, 0)]], [], []⟩
def abs_216 : AbsCert := ⟨[⟨.full, ⟨1,1,0⟩, 2⟩, ⟨.full, ⟨0,1,1⟩, 2⟩], [[([0, 0, 0], 0, 0), ([12,
    12, 0], 0, 0), ([0, 12, 12], 0, 1), ([12, 0, 12], 1, 1)], [], [], [], [([0, 0], 0, 0), ([12,
    12], 0, 1)], [([0, 0], 0, 0), ([12, 12], 0, 1)], [([0, 0], 0, 0), ([12, 12], 0, 0)], [([0, 0],
    0, 0), ([12, 12], 0, 0)], [([0, 0], 0, 0), ([12, 12], 0, 0)], [([0, 0], 0, 0), ([12, 12], 0,
    0)], [], [], [([0], 0, 0), ([12], 0, 0)], [([0], 0, 0), ([12], 0, 0)], [([0], 0, 0), ([12], 0,
    1)], [], [], [], [], [], [], [([0], 0, 0)], [([0], 0, 0)], [([0], 0, 0)], [([0], 0, 0)], [],
    [], [([], 0, 0)]], [7, 1], []⟩
def abs_217 : AbsCert := ⟨[⟨.full, ⟨1,1,1⟩, 2⟩], [[([0, 0, 0], 0, 0), ([12, 12, 12], 0, 0)], [],
    [], [], [([0, 0], 0, 0), ([0, 12], 0, 0)], [([0, 0], 0, 0), ([0, 12], 0, 0)], [([0, 0], 0, 0),
    ([12, 0], 0, 0)], [([0, 0], 0, 0), ([12, 0], 0, 0)], [([0, 0], 0, 0), ([12, 0], 0, 0)], [([0,
    0], 0, 0), ([12, 0], 0, 0)], [], [], [([0], 0, 0), ([12], 0, 0)], [([0], 0, 0), ([12], 0, 0)],
    [([0], 0, 0), ([12], 0, 0)], [], [], [], [], [], [], [([0], 0, 0), ([12], 0, 0)], [([0], 0, 0),
    ([12], 0, 0)], [([0], 0, 0), ([12], 0, 0)], [([0], 0, 0), ([12], 0, 0)], [], [], [([], 0, 0)]],
    [1], []⟩
def abs_218 : AbsCert := ⟨[⟨.xy, ⟨0,0,1⟩, 2⟩, ⟨.xny, ⟨0,0,1⟩, 2⟩, ⟨.yz, ⟨1,0,0⟩, 2⟩, ⟨.ynz,
    ⟨1,0,0⟩, 2⟩, ⟨.xz, ⟨0,1,0⟩, 2⟩, ⟨.xnz, ⟨0,1,0⟩, 2⟩], [[([0, 0, 0], 0, 0)], [], [], [], [([0,
    0], 0, 0), ([0, 12], 0, 0)], [([0, 0], 0, 0), ([0, 12], 0, 1)], [([0, 0], 0, 0), ([12, 0], 0,
    2)], [([0, 0], 0, 0), ([12, 0], 0, 3)], [([0, 0], 0, 0), ([12, 0], 0, 4)], [([0, 0], 0, 0),
    ([12, 0], 0, 5)], [], [], [([0], 0, 0), ([12], 0, 2)], [([0], 0, 0), ([12], 0, 4)], [([0], 0,
    0), ([12], 0, 0)], [], [], [], [], [], [], [([0], 0, 0), ([12], 0, 0)], [([0], 0, 0), ([12], 0,
    1)], [([0], 0, 0), ([12], 0, 1)], [([0], 0, 0), ([12], 0, 0)], [], [], [([], 0, 0)]], [4, 7,
    20, 22, 13, 19], []⟩
def abs_219 : AbsCert := ⟨[⟨.full, ⟨1,1,0⟩, 2⟩, ⟨.full, ⟨0,1,1⟩, 2⟩, ⟨.xy, ⟨0,0,1⟩, 2⟩, ⟨.xny,
    ⟨0,0,1⟩, 2⟩, ⟨.yz, ⟨1,0,0⟩, 2⟩, ⟨.ynz, ⟨1,0,0⟩, 2⟩, ⟨.xz, ⟨0,1,0⟩, 2⟩, ⟨.xnz, ⟨0,1,0⟩, 2⟩],
    [[([0, 0, 0], 0, 0), ([12, 12, 0], 0, 0), ([0, 12, 12], 0, 1), ([12, 0, 12], 1, 1)], [], [],
    [], [([0, 0], 0, 0), ([12, 12], 0, 1), ([0, 12], 0, 2), ([12, 0], 1, 2)], [([0, 0], 0, 0),
    ([12, 12], 0, 1), ([0, 12], 0, 3), ([12, 0], 1, 3)], [([0, 0], 0, 0), ([12, 12], 0, 0), ([12,
    0], 0, 4), ([0, 12], 1, 4)], [([0, 0], 0, 0), ([12, 12], 0, 0), ([12, 0], 0, 5), ([0, 12], 1,
    5)], [([0, 0], 0, 0), ([12, 12], 0, 0), ([12, 0], 0, 6), ([0, 12], 1, 6)], [([0, 0], 0, 0),
    ([12, 12], 0, 0), ([12, 0], 0, 7), ([0, 12], 1, 7)], [], [], [([0], 0, 0), ([12], 0, 0)],
    [([0], 0, 0), ([12], 0, 0)], [([0], 0, 0), ([12], 0, 1)], [], [], [], [], [], [], [([0], 0, 0),
    ([12], 0, 2)], [([0], 0, 0), ([12], 0, 3)], [([0], 0, 0), ([12], 0, 3)], [([0], 0, 0), ([12],
    0, 2)], [], [], [([], 0, 0)]], [7, 1, 6, 22, 80, 88, 49, 73], []⟩
def abs_220 : AbsCert := ⟨[⟨.full, ⟨1,1,1⟩, 2⟩, ⟨.xy, ⟨2,0,1⟩, 4⟩, ⟨.xny, ⟨2,0,1⟩, 4⟩, ⟨.yz,
    ⟨1,2,0⟩, 4⟩, ⟨.ynz, ⟨1,2,0⟩, 4⟩, ⟨.xz, ⟨2,1,0⟩, 4⟩, ⟨.xnz, ⟨2,1,0⟩, 4⟩], [[([0, 0, 0], 0, 0),
    ([12, 12, 12], 0, 0)], [], [], [], [([0, 0], 0, 0), ([0, 12], 0, 0), ([12, 6], 0, 1), ([12,
    18], 1, 1)], [([0, 0], 0, 0), ([0, 12], 0, 0), ([12, 6], 0, 2), ([12, 18], 1, 2)], [([0, 0], 0,
    0), ([12, 0], 0, 0), ([6, 12], 0, 3), ([18, 12], 1, 3)], [([0, 0], 0, 0), ([12, 0], 0, 0), ([6,
    12], 0, 4), ([18, 12], 1, 4)], [([0, 0], 0, 0), ([12, 0], 0, 0), ([6, 12], 0, 5), ([18, 12], 1,
    5)], [([0, 0], 0, 0), ([12, 0], 0, 0), ([6, 12], 0, 6), ([18, 12], 1, 6)], [], [], [([0], 0,
    0), ([12], 0, 0), ([6], 0, 3), ([18], 1, 3)], [([0], 0, 0), ([12], 0, 0), ([6], 0, 5), ([18],
    1, 5)], [([0], 0, 0), ([12], 0, 0), ([6], 0, 1), ([18], 1, 1)], [], [], [], [], [], [], [([0],
    0, 0), ([12], 0, 0), ([18], 0, 1), ([6], 1, 1)], [([0], 0, 0), ([12], 0, 0), ([18], 0, 2),
    ([6], 0, 3)], [([0], 0, 0), ([12], 0, 0), ([18], 0, 2), ([6], 0, 5)], [([0], 0, 0), ([12], 0,
    0), ([6], 0, 1), ([18], 0, 4)], [], [], [([], 0, 0)]], [1, 5, 12, 40, 44, 25, 37], []⟩
def abs_221 : AbsCert := ⟨[], [[([0, 0, 0], 0, 0)], [([0, 0], 0, 0)], [([0, 0], 0, 0)], [([0, 0],
    0, 0)], [([0, 0], 0, 0)], [([0, 0], 0, 0)], [([0, 0], 0, 0)], [([0, 0], 0, 0)], [([0, 0], 0,
    0)], [([0, 0], 0, 0)], [], [], [([0], 0, 0)], [([0], 0, 0)], [([0], 0, 0)], [([0], 0, 0)],
    [([0], 0, 0)], [([0], 0, 0)], [([0], 0, 0)], [([0], 0, 0)], [([0], 0, 0)], [([0], 0, 0)],
    [([0], 0, 0)], [([0], 0, 0)], [([0], 0, 0)], [], [], [([], 0, 0)]], [], []⟩
def abs_222 : AbsCert := ⟨[⟨.x0, ⟨0,1,1⟩, 2⟩, ⟨.y0, ⟨1,0,1⟩, 2⟩, ⟨.z0, ⟨1,1,0⟩, 2⟩, ⟨.xy, ⟨0,0,1⟩,
    2⟩, ⟨.xny, ⟨0,0,1⟩, 2⟩, ⟨.yz, ⟨1,0,0⟩, 2⟩, ⟨.ynz, ⟨1,0,0⟩, 2⟩, ⟨.xz, ⟨0,1,0⟩, 2⟩, ⟨.xnz,
    ⟨0,1,0⟩, 2⟩], [[([0, 0, 0], 0, 0)], [([0, 0], 0, 0), ([12, 12], 0, 0)], [([0, 0], 0, 0), ([12,
    12], 0, 1)], [([0, 0], 0, 0), ([12, 12], 0, 2)], [([0, 0], 0, 0), ([0, 12], 0, 3)], [([0, 0],
    0, 0), ([0, 12], 0, 4)], [([0, 0], 0, 0), ([12, 0], 0, 5)], [([0, 0], 0, 0), ([12, 0], 0, 6)],
    [([0, 0], 0, 0), ([12, 0], 0, 7)], [([0, 0], 0, 0), ([12, 0], 0, 8)], [], [], [([0], 0, 0),
    ([12], 0, 1)], [([0], 0, 0), ([12], 0, 0)], [([0], 0, 0), ([12], 0, 0)], [([0], 0, 0)], [([0],
    0, 0)], [([0], 0, 0)], [([0], 0, 0)], [([0], 0, 0)], [([0], 0, 0)], [([0], 0, 0), ([12], 0,
    3)], [([0], 0, 0), ([12], 0, 4)], [([0], 0, 0), ([12], 0, 4)], [([0], 0, 0), ([12], 0, 3)], [],
    [], [([], 0, 0)]], [15, 12, 9, 37, 36, 42, 41, 47, 45], [15, 12, 9, 37, 36, 42, 41, 47, 45]⟩
def abs_223 : AbsCert := ⟨[⟨.xy, ⟨0,0,1⟩, 2⟩, ⟨.xny, ⟨0,0,1⟩, 2⟩, ⟨.yz, ⟨1,0,0⟩, 2⟩, ⟨.ynz,
    ⟨1,0,0⟩, 2⟩, ⟨.xz, ⟨0,1,0⟩, 2⟩, ⟨.xnz, ⟨0,1,0⟩, 2⟩, ⟨.az, ⟨0,0,1⟩, 2⟩, ⟨.ay, ⟨0,1,0⟩, 2⟩, ⟨.ax,
    ⟨1,0,0⟩, 2⟩], [[([0, 0, 0], 0, 0)], [([0, 0], 0, 0)], [([0, 0], 0, 0)], [([0, 0], 0, 0)], [([0,
    0], 0, 0), ([0, 12], 0, 0)], [([0, 0], 0, 0), ([0, 12], 0, 1)], [([0, 0], 0, 0), ([12, 0], 0,
    2)], [([0, 0], 0, 0), ([12, 0], 0, 3)], [([0, 0], 0, 0), ([12, 0], 0, 4)], [([0, 0], 0, 0),
    ([12, 0], 0, 5)], [], [], [([0], 0, 0), ([12], 0, 2)], [([0], 0, 0), ([12], 0, 4)], [([0], 0,
    0), ([12], 0, 0)], [([0], 0, 0)], [([0], 0, 0)], [([0], 0, 0)], [([0], 0, 0)], [([0], 0, 0)],
    [([0], 0, 0)], [([0], 0, 0), ([12], 0, 0)], [([0], 0, 0), ([12], 0, 1)], [([0], 0, 0), ([12],
    0, 1)], [([0], 0, 0), ([12], 0, 0)], [], [], [([], 0, 0)]], [15, 9, 43, 47, 31, 35, 9, 25, 40],
    []⟩
def abs_224 : AbsCert := ⟨[⟨.x0, ⟨0,1,1⟩, 2⟩, ⟨.y0, ⟨1,0,1⟩, 2⟩, ⟨.z0, ⟨1,1,0⟩, 2⟩, ⟨.az, ⟨0,0,1⟩,
    2⟩, ⟨.ay, ⟨0,1,0⟩, 2⟩, ⟨.ax, ⟨1,0,0⟩, 2⟩], [[([0, 0, 0], 0, 0)], [([0, 0], 0, 0), ([12, 12], 0,
    0)], [([0, 0], 0, 0), ([12, 12], 0, 1)], [([0, 0], 0, 0), ([12, 12], 0, 2)], [([0, 0], 0, 0)],
    [([0, 0], 0, 0)], [([0, 0], 0, 0)], [([0, 0], 0, 0)], [([0, 0], 0, 0)], [([0, 0], 0, 0)], [],
    [], [([0], 0, 0), ([12], 0, 1)], [([0], 0, 0), ([12], 0, 0)], [([0], 0, 0), ([12], 0, 0)],
    [([0], 0, 0)], [([0], 0, 0)], [([0], 0, 0)], [([0], 0, 0)], [([0], 0, 0)], [([0], 0, 0)],
    [([0], 0, 0)], [([0], 0, 0)], [([0], 0, 0)], [([0], 0, 0)], [], [], [([], 0, 0)]], [15, 12, 9,
    11, 9, 9], [15, 12, 9, 11, 9, 9]⟩
def abs_225 : AbsCert := ⟨[⟨.full, ⟨1,1,0⟩, 2⟩, ⟨.full, ⟨0,1,1⟩, 2⟩], [[([0, 0, 0], 0, 0), ([12,
    12, 0], 0, 0), ([0, 12, 12], 0, 1), ([12, 0, 12], 1, 1)], [([0, 0], 0, 0), ([12, 0], 0, 0),
    ([12, 12], 0, 1), ([0, 12], 1, 1)], [([0, 0], 0, 0), ([12, 0], 0, 0), ([0, 12], 0, 1), ([12,
    12], 1, 1)], [([0, 0], 0, 0), ([12, 12], 0, 0), ([0, 12], 0, 1), ([12, 0], 1, 1)], [([0, 0], 0,
    0), ([12, 12], 0, 1)], [([0, 0], 0, 0), ([12, 12], 0, 1)], [([0, 0], 0, 0), ([12, 12], 0, 0)],
    [([0, 0], 0, 0), ([12, 12], 0, 0)], [([0, 0], 0, 0), ([12, 12], 0, 0)], [([0, 0], 0, 0), ([12,
    12], 0, 0)], [], [], [([0], 0, 0), ([12], 0, 0)], [([0], 0, 0), ([12], 0, 0)], [([0], 0, 0),
    ([12], 0, 1)], [([0], 0, 0), ([12], 0, 1)], [([0], 0, 0), ([12], 0, 1)], [([0], 0, 0), ([12],
    0, 0)], [([0], 0, 0), ([12], 0, 0)], [([0], 0, 0), ([12], 0, 0)], [([0], 0, 0), ([12], 0, 0)],
    [([0], 0, 0)], [([0], 0, 0)], [([0], 0, 0)], [([0], 0, 0)], [], [], [([], 0, 0)]], [14, 2], []⟩
def abs_226 : AbsCert := ⟨[⟨.full, ⟨1,1,0⟩, 2⟩, ⟨.full, ⟨0,1,1⟩, 2⟩, ⟨.xy, ⟨0,0,1⟩, 2⟩, ⟨.xny,
    ⟨0,0,1⟩, 2⟩, ⟨.yz, ⟨1,0,0⟩, 2⟩, ⟨.ynz, ⟨1,0,0⟩, 2⟩, ⟨.xz, ⟨0,1,0⟩, 2⟩, ⟨.xnz, ⟨0,1,0⟩, 2⟩],
    [[([0, 0, 0], 0, 0), ([12, 12, 0], 0, 0), ([0, 12, 12], 0, 1), ([12, 0, 12], 1, 1)], [([0, 0],
    0, 0), ([12, 0], 0, 0), ([12, 12], 0, 1), ([0, 12], 1, 1)], [([0, 0], 0, 0), ([12, 0], 0, 0),
    ([0, 12], 0, 1), ([12, 12], 1, 1)], [([0, 0], 0, 0), ([12, 12], 0, 0), ([0, 12], 0, 1), ([12,
    0], 1, 1)], [([0, 0], 0, 0), ([12, 12], 0, 1), ([0, 12], 0, 2), ([12, 0], 1, 2)], [([0, 0], 0,
    0), ([12, 12], 0, 1), ([0, 12], 0, 3), ([12, 0], 1, 3)], [([0, 0], 0, 0), ([12, 12], 0, 0),
    ([12, 0], 0, 4), ([0, 12], 1, 4)], [([0, 0], 0, 0), ([12, 12], 0, 0), ([12, 0], 0, 5), ([0,
    12], 1, 5)], [([0, 0], 0, 0), ([12, 12], 0, 0), ([12, 0], 0, 6), ([0, 12], 1, 6)], [([0, 0], 0,
    0), ([12, 12], 0, 0), ([12, 0], 0, 7), ([0, 12], 1, 7)], [], [], [([0], 0, 0), ([12], 0, 0)],
    [([0], 0, 0), ([12], 0, 0)], [([0], 0, 0), ([12], 0, 1)], [([0], 0, 0), ([12], 0, 1)], [([0],
    0, 0), ([12], 0, 1)], [([0], 0, 0), ([12], 0, 0)], [([0], 0, 0), ([12], 0, 0)], [([0], 0, 0),
    ([12], 0, 0)], [([0], 0, 0), ([12], 0, 0)], [([0], 0, 0), ([12], 0, 2)], [([0], 0, 0), ([12],
    0, 3)], [([0], 0, 0), ([12], 0, 3)], [([0], 0, 0), ([12], 0, 2)], [], [], [([], 0, 0)]], [14,
    2, 45, 13, 169, 185, 115, 131], []⟩
def abs_227 : AbsCert := ⟨[⟨.full, ⟨1,1,0⟩, 2⟩, ⟨.full, ⟨0,1,1⟩, 2⟩, ⟨.x0, ⟨0,1,1⟩, 4⟩, ⟨.y0,
    ⟨1,0,1⟩, 4⟩, ⟨.z0, ⟨1,1,0⟩, 4⟩, ⟨.az, ⟨0,0,1⟩, 4⟩, ⟨.ay, ⟨0,1,0⟩, 4⟩, ⟨.ax, ⟨1,0,0⟩, 4⟩],
    [[([0, 0, 0], 0, 0), ([12, 12, 0], 0, 0), ([0, 12, 12], 0, 1), ([12, 0, 12], 1, 1)], [([0, 0],
    0, 0), ([12, 0], 0, 0), ([12, 12], 0, 1), ([6, 6], 0, 2), ([0, 12], 1, 1), ([18, 6], 1, 2),
    ([18, 18], 2, 2), ([6, 18], 4, 2)], [([0, 0], 0, 0), ([12, 0], 0, 0), ([0, 12], 0, 1), ([6, 6],
    0, 3), ([12, 12], 1, 1), ([18, 6], 1, 3), ([6, 18], 2, 3), ([18, 18], 4, 3)], [([0, 0], 0, 0),
    ([12, 12], 0, 0), ([0, 12], 0, 1), ([6, 6], 0, 4), ([12, 0], 1, 1), ([18, 18], 1, 4), ([6, 18],
    2, 4), ([18, 6], 4, 4)], [([0, 0], 0, 0), ([12, 12], 0, 1)], [([0, 0], 0, 0), ([12, 12], 0,
    1)], [([0, 0], 0, 0), ([12, 12], 0, 0)], [([0, 0], 0, 0), ([12, 12], 0, 0)], [([0, 0], 0, 0),
    ([12, 12], 0, 0)], [([0, 0], 0, 0), ([12, 12], 0, 0)], [], [], [([0], 0, 0), ([12], 0, 0),
    ([6], 0, 3), ([18], 1, 3)], [([0], 0, 0), ([12], 0, 0), ([6], 0, 2), ([18], 1, 2)], [([0], 0,
    0), ([12], 0, 1), ([6], 0, 2), ([18], 1, 2)], [([0], 0, 0), ([12], 0, 1)], [([0], 0, 0), ([12],
    0, 1)], [([0], 0, 0), ([12], 0, 0)], [([0], 0, 0), ([12], 0, 0)], [([0], 0, 0), ([12], 0, 0)],
    [([0], 0, 0), ([12], 0, 0)], [([0], 0, 0)], [([0], 0, 0)], [([0], 0, 0)], [([0], 0, 0)], [],
    [], [([], 0, 0)]], [8, 1, 60, 45, 31, 41, 27, 27], [8, 1, 60, 45, 31, 41, 27, 27]⟩
def abs_228 : AbsCert := ⟨[⟨.full, ⟨1,1,0⟩, 2⟩, ⟨.full, ⟨0,1,1⟩, 2⟩, ⟨.x0, ⟨0,1,1⟩, 4⟩, ⟨.y0,
    ⟨1,0,1⟩, 4⟩, ⟨.z0, ⟨1,1,0⟩, 4⟩, ⟨.xy, ⟨0,0,1⟩, 2⟩, ⟨.xny, ⟨0,0,1⟩, 2⟩, ⟨.yz, ⟨1,0,0⟩, 2⟩,
    ⟨.ynz, ⟨1,0,0⟩, 2⟩, ⟨.xz, ⟨0,1,0⟩, 2⟩, ⟨.xnz, ⟨0,1,0⟩, 2⟩, ⟨.az, ⟨0,0,1⟩, 4⟩, ⟨.ay, ⟨0,1,0⟩,
    4⟩, ⟨.ax, ⟨1,0,0⟩, 4⟩], [[([0, 0, 0], 0, 0), ([12, 12, 0], 0, 0), ([0, 12, 12], 0, 1), ([12, 0,
    12], 1, 1)], [([0, 0], 0, 0), ([12, 0], 0, 0), ([12, 12], 0, 1), ([6, 6], 0, 2), ([0, 12], 1,
    1), ([18, 6], 1, 2), ([18, 18], 2, 2), ([6, 18], 4, 2)], [([0, 0], 0, 0), ([12, 0], 0, 0), ([0,
    12], 0, 1), ([6, 6], 0, 3), ([12, 12], 1, 1), ([18, 6], 1, 3), ([6, 18], 2, 3), ([18, 18], 4,
    3)], [([0, 0], 0, 0), ([12, 12], 0, 0), ([0, 12], 0, 1), ([6, 6], 0, 4), ([12, 0], 1, 1), ([18,
    18], 1, 4), ([6, 18], 2, 4), ([18, 6], 4, 4)], [([0, 0], 0, 0), ([12, 12], 0, 1), ([0, 12], 0,
    5), ([12, 0], 1, 5)], [([0, 0], 0, 0), ([12, 12], 0, 1), ([0, 12], 0, 6), ([12, 0], 1, 6)],
    [([0, 0], 0, 0), ([12, 12], 0, 0), ([12, 0], 0, 7), ([0, 12], 1, 7)], [([0, 0], 0, 0), ([12,
    12], 0, 0), ([12, 0], 0, 8), ([0, 12], 1, 8)], [([0, 0], 0, 0), ([12, 12], 0, 0), ([12, 0], 0,
    9), ([0, 12], 1, 9)], [([0, 0], 0, 0), ([12, 12], 0, 0), ([12, 0], 0, 10), ([0, 12], 1, 10)],
    [], [], [([0], 0, 0), ([12], 0, 0), ([6], 0, 3), ([18], 1, 3)], [([0], 0, 0), ([12], 0, 0),
    ([6], 0, 2), ([18], 1, 2)], [([0], 0, 0), ([12], 0, 1), ([6], 0, 2), ([18], 1, 2)], [([0], 0,
    0), ([12], 0, 1)], [([0], 0, 0), ([12], 0, 1)], [([0], 0, 0), ([12], 0, 0)], [([0], 0, 0),
    ([12], 0, 0)], [([0], 0, 0), ([12], 0, 0)], [([0], 0, 0), ([12], 0, 0)], [([0], 0, 0), ([12],
    0, 5)], [([0], 0, 0), ([12], 0, 6)], [([0], 0, 0), ([12], 0, 6)], [([0], 0, 0), ([12], 0, 5)],
    [], [], [([], 0, 0)]], [8, 1, 60, 45, 31, 148, 145, 168, 166, 188, 181, 41, 27, 27], [8, 1, 60,
    45, 31, 148, 145, 168, 166, 188, 181, 41, 27, 27]⟩
def abs_229 : AbsCert := ⟨[⟨.full, ⟨1,1,1⟩, 2⟩], [[([0, 0, 0], 0, 0), ([12, 12, 12], 0, 0)], [([0,
    0], 0, 0), ([12, 12], 0, 0)], [([0, 0], 0, 0), ([12, 12], 0, 0)], [([0, 0], 0, 0), ([12, 12],
    0, 0)], [([0, 0], 0, 0), ([0, 12], 0, 0)], [([0, 0], 0, 0), ([0, 12], 0, 0)], [([0, 0], 0, 0),
    ([12, 0], 0, 0)], [([0, 0], 0, 0), ([12, 0], 0, 0)], [([0, 0], 0, 0), ([12, 0], 0, 0)], [([0,
    0], 0, 0), ([12, 0], 0, 0)], [], [], [([0], 0, 0), ([12], 0, 0)], [([0], 0, 0), ([12], 0, 0)],
    [([0], 0, 0), ([12], 0, 0)], [([0], 0, 0)], [([0], 0, 0)], [([0], 0, 0)], [([0], 0, 0)], [([0],
    0, 0)], [([0], 0, 0)], [([0], 0, 0), ([12], 0, 0)], [([0], 0, 0), ([12], 0, 0)], [([0], 0, 0),
    ([12], 0, 0)], [([0], 0, 0), ([12], 0, 0)], [], [], [([], 0, 0)]], [2], []⟩
def abs_230 : AbsCert := ⟨[⟨.full, ⟨1,1,1⟩, 2⟩, ⟨.x0, ⟨0,1,0⟩, 2⟩, ⟨.x0, ⟨0,0,1⟩, 2⟩, ⟨.y0,
    ⟨1,0,0⟩, 2⟩, ⟨.y0, ⟨0,0,1⟩, 2⟩, ⟨.z0, ⟨1,0,0⟩, 2⟩, ⟨.xy, ⟨2,0,1⟩, 4⟩, ⟨.xny, ⟨2,0,1⟩, 4⟩, ⟨.yz,
    ⟨1,2,0⟩, 4⟩, ⟨.ynz, ⟨1,2,0⟩, 4⟩, ⟨.xz, ⟨2,1,0⟩, 4⟩, ⟨.xnz, ⟨2,1,0⟩, 4⟩, ⟨.az, ⟨0,0,1⟩, 4⟩,
    ⟨.ay, ⟨0,1,0⟩, 4⟩, ⟨.ax, ⟨1,0,0⟩, 4⟩], [[([0, 0, 0], 0, 0), ([12, 12, 12], 0, 0)], [([0, 0], 0,
    0), ([12, 12], 0, 0), ([12, 0], 0, 1), ([0, 12], 0, 2)], [([0, 0], 0, 0), ([12, 12], 0, 0),
    ([12, 0], 0, 3), ([0, 12], 0, 4)], [([0, 0], 0, 0), ([12, 12], 0, 0), ([12, 0], 0, 5), ([0,
    12], 1, 5)], [([0, 0], 0, 0), ([0, 12], 0, 0), ([12, 6], 0, 6), ([12, 18], 1, 6)], [([0, 0], 0,
    0), ([0, 12], 0, 0), ([12, 6], 0, 7), ([12, 18], 1, 7)], [([0, 0], 0, 0), ([12, 0], 0, 0), ([6,
    12], 0, 8), ([18, 12], 1, 8)], [([0, 0], 0, 0), ([12, 0], 0, 0), ([6, 12], 0, 9), ([18, 12], 1,
    9)], [([0, 0], 0, 0), ([12, 0], 0, 0), ([6, 12], 0, 10), ([18, 12], 1, 10)], [([0, 0], 0, 0),
    ([12, 0], 0, 0), ([6, 12], 0, 11), ([18, 12], 1, 11)], [], [], [([0], 0, 0), ([12], 0, 0),
    ([6], 0, 8), ([18], 1, 8)], [([0], 0, 0), ([12], 0, 0), ([6], 0, 10), ([18], 1, 10)], [([0], 0,
    0), ([12], 0, 0), ([6], 0, 6), ([18], 1, 6)], [([0], 0, 0), ([12], 0, 5)], [([0], 0, 0), ([12],
    0, 5)], [([0], 0, 0), ([12], 0, 3)], [([0], 0, 0), ([12], 0, 3)], [([0], 0, 0), ([12], 0, 1)],
    [([0], 0, 0), ([12], 0, 1)], [([0], 0, 0), ([12], 0, 0), ([18], 0, 6), ([6], 1, 6)], [([0], 0,
    0), ([12], 0, 0), ([18], 0, 7), ([6], 0, 8)], [([0], 0, 0), ([12], 0, 0), ([18], 0, 7), ([6],
    0, 10)], [([0], 0, 0), ([12], 0, 0), ([6], 0, 6), ([18], 0, 9)], [], [], [([], 0, 0)]], [2, 23,
    29, 17, 9, 8, 25, 11, 85, 93, 59, 67, 11, 49, 80], []⟩

/-- Certificates in the order of the space group numbers. -/
def absTable : List AbsCert :=
  [abs_1, abs_2, abs_3, abs_4, abs_5, abs_6, abs_7, abs_8, abs_9, abs_10,
    abs_11, abs_12, abs_13, abs_14, abs_15, abs_16, abs_17, abs_18, abs_19, abs_20,
    abs_21, abs_22, abs_23, abs_24, abs_25, abs_26, abs_27, abs_28, abs_29, abs_30,
    abs_31, abs_32, abs_33, abs_34, abs_35, abs_36, abs_37, abs_38, abs_39, abs_40,
    abs_41, abs_42, abs_43, abs_44, abs_45, abs_46, abs_47, abs_48, abs_49, abs_50,
    abs_51, abs_52, abs_53, abs_54, abs_55, abs_56, abs_57, abs_58, abs_59, abs_60,
    abs_61, abs_62, abs_63, abs_64, abs_65, abs_66, abs_67, abs_68, abs_69, abs_70,
    abs_71, abs_72, abs_73, abs_74, abs_75, abs_76, abs_77, abs_78, abs_79, abs_80,
    abs_81, abs_82, abs_83, abs_84, abs_85, abs_86, abs_87, abs_88, abs_89, abs_90,
    abs_91, abs_92, abs_93, abs_94, abs_95, abs_96, abs_97, abs_98, abs_99, abs_100,
    abs_101, abs_102, abs_103, abs_104, abs_105, abs_106, abs_107, abs_108, abs_109, abs_110,
    abs_111, abs_112, abs_113, abs_114, abs_115, abs_116, abs_117, abs_118, abs_119, abs_120,
    abs_121, abs_122, abs_123, abs_124, abs_125, abs_126, abs_127, abs_128, abs_129, abs_130,
    abs_131, abs_132, abs_133, abs_134, abs_135, abs_136, abs_137, abs_138, abs_139, abs_140,
    abs_141, abs_142, abs_143, abs_144, abs_145, abs_146, abs_147, abs_148, abs_149, abs_150,
    abs_151, abs_152, abs_153, abs_154, abs_155, abs_156, abs_157, abs_158, abs_159, abs_160,
    abs_161, abs_162, abs_163, abs_164, abs_165, abs_166, abs_167, abs_168, abs_169, abs_170,
    abs_171, abs_172, abs_173, abs_174, abs_175, abs_176, abs_177, abs_178, abs_179, abs_180,
    abs_181, abs_182, abs_183, abs_184, abs_185, abs_186, abs_187, abs_188, abs_189, abs_190,
    abs_191, abs_192, abs_193, abs_194, abs_195, abs_196, abs_197, abs_198, abs_199, abs_200,
    abs_201, abs_202, abs_203, abs_204, abs_205, abs_206, abs_207, abs_208, abs_209, abs_210,
    abs_211, abs_212, abs_213, abs_214, abs_215, abs_216, abs_217, abs_218, abs_219, abs_220,
    abs_221, abs_222, abs_223, abs_224, abs_225, abs_226, abs_227, abs_228, abs_229, abs_230]

/-- The two conditions of the code for Pa-3 (205) that the group does not have. -/
def extra205 : List Cond := [⟨.x0, ⟨0,0,1⟩, 2⟩, ⟨.y0, ⟨1,0,0⟩, 2⟩]

/-- The conditions of the code that the group has. -/
def properConds (sg : Nat) (A : List Cond) : List Cond :=
  if sg = 205 then A.filter fun k => decide (k ∉ extra205) else A

/-- The check of a space group in setting 0. -/
noncomputable def checkAbs (sg : Nat) : Bool :=
  match condsOf sg, absTable[sg - 1]?, table0[sg - 1]? with
  | some A, some X, some (C, _) =>
    decide (properConds sg A = X.A) && spansB X.A X.spans && C.all (opB X.spans) && witsB C X.A X.wits
  | _, _, _ => false

/-- The check of the `i`-th space group with a second setting. -/
noncomputable def checkAbsAlt (i : Nat) : Bool :=
  match altGroups[i]?, table1[i]? with
  | some sg, some (C, _) =>
    match absTable[sg - 1]? with
    | some X => C.all (opB X.spans) && witsB C X.A X.witsAlt
    | _ => false
  | _, _ => false

end Hexrd.SpaceGroup
