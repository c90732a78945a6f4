import Verif.Model.Polar
import Verif.Spec.Polar
import Verif.Props.Detector
import Verif.Props.Cylinder
import Verif.Props.Geometry

/-!
C74: the polar view.
-/

namespace Hexrd.Polar

open Hexrd.Transforms Hexrd.Transforms.Spec Hexrd.Detector Spec Matrix

/-! ### The angular grid -/

theorem radians_mul (a b : ℝ) : radians (a * b) = radians a * b := by unfold radians; ring

theorem grid_length (v : View) : v.grid.length = v.neta * v.ntth := by
  simp [View.grid, View.etaVec, View.tthVec, List.length_flatMap, Function.comp_def]

theorem flatMap_get {α β γ : Type} (es : List α) (ts : List β) (f : α → β → γ) (i j : Nat) (e : α) (t : β)
    (hi : es[i]? = some e) (hj : ts[j]? = some t) :
    (es.flatMap fun e => ts.map (f e))[i * ts.length + j]? = some (f e t) := by
  have hjl : j < ts.length := (List.getElem?_eq_some_iff.1 hj).1
  induction es generalizing i with
  | nil => simp at hi
  | cons a es ih =>
    rw [List.flatMap_cons]
    cases i with
    | zero =>
      simp at hi; subst hi
      rw [List.getElem?_append_left (by simpa using hjl)]
      simp [hj]
    | succ i =>
      simp at hi
      rw [List.getElem?_append_right (by simp; nlinarith)]
      have := ih i hi
      rw [show (i + 1) * ts.length + j - (ts.map (f a)).length = i * ts.length + j by
        simp; rw [Nat.add_mul]; omega]
      exact this

/-- C74: row `i` and column `j` of the polar image stand for the centre of the cell that starts `i` eta steps and `j`
two-theta steps after the lower limits. -/
theorem grid_entry (v : View) {i j : Nat} (hi : i < v.neta) (hj : j < v.ntth) :
    v.grid[i * v.ntth + j]? =
      some (v.tthMin + (j + 1 / 2) * radians v.tthPix, v.etaMin + (i + 1 / 2) * radians v.etaPix) := by
  have hl : v.tthVec.length = v.ntth := by simp [View.tthVec]
  have h1 : v.etaVec[i]? = some (radians (v.etaPix * i) + v.etaMin + 1 / 2 * radians v.etaPix) := by
    simp [View.etaVec, hi]
  have h2 : v.tthVec[j]? = some (radians (v.tthPix * j) + v.tthMin + 1 / 2 * radians v.tthPix) := by
    simp [View.tthVec, hj]
  have := flatMap_get v.etaVec v.tthVec (fun e t => (t, e)) i j _ _ h1 h2
  rw [hl] at this
  rw [View.grid, this, radians_mul, radians_mul]
  congr 2 <;> ring

theorem count_covers {lo hi pix : ℝ} (h : lo ≤ hi) (hp : 0 < pix) :
    |((npRound (degrees (hi - lo) / pix)).toNat : ℝ) * radians pix - (hi - lo)| ≤ radians pix / 2 := by
  have hpi := Real.pi_pos
  have hr : 0 < radians pix := by unfold radians; positivity
  have e : degrees (hi - lo) / pix = (hi - lo) / radians pix := by unfold degrees radians; field_simp
  have h0 : 0 ≤ degrees (hi - lo) / pix := by rw [e]; exact div_nonneg (by linarith) hr.le
  have hn := npRound_nonneg h0
  have hc : ((npRound (degrees (hi - lo) / pix)).toNat : ℝ) = ((npRound (degrees (hi - lo) / pix) : ℤ) : ℝ) := by
    have : ((npRound (degrees (hi - lo) / pix)).toNat : ℤ) = npRound (degrees (hi - lo) / pix) := Int.toNat_of_nonneg hn
    exact_mod_cast this
  rw [hc]
  have hnear := npRound_near (degrees (hi - lo) / pix)
  rw [e] at hnear ⊢
  have : ((npRound ((hi - lo) / radians pix) : ℤ) : ℝ) * radians pix - (hi - lo) =
      (((npRound ((hi - lo) / radians pix) : ℤ) : ℝ) - (hi - lo) / radians pix) * radians pix := by field_simp
  rw [this, abs_mul, abs_of_pos hr]
  nlinarith

/-- C74: the cells cover the angular window up to half a cell. -/
theorem grid_covers (v : View) (ht : v.tthMin ≤ v.tthMax) (he : v.etaMin ≤ v.etaMax) (hp : 0 < v.tthPix)
    (hq : 0 < v.etaPix) :
    |v.ntth * radians v.tthPix - (v.tthMax - v.tthMin)| ≤ radians v.tthPix / 2 ∧
      |v.neta * radians v.etaPix - (v.etaMax - v.etaMin)| ≤ radians v.etaPix / 2 :=
  ⟨count_covers ht hp, count_covers he hq⟩

theorem getLast_range_map {α : Type} (n : Nat) (f : Nat → α) (h : 0 < n) :
    ((List.range n).map f).getLast? = some (f (n - 1)) := by
  rw [List.getLast?_eq_getElem?]
  simp [h]

theorem head_range_map {α : Type} (n : Nat) (f : Nat → α) (h : 0 < n) : ((List.range n).map f).head? = some (f 0) := by
  rw [List.head?_eq_getElem?]
  simp [h]

/-- C74: the extent is the outline of the cells; it starts at the lower limits and ends the number of cells times the
cell size further on. -/
theorem extent_eq (v : View) (ht : 0 < v.ntth) (he : 0 < v.neta) :
    v.extent = some (v.tthMin, v.tthMin + v.ntth * radians v.tthPix, v.etaMin + v.neta * radians v.etaPix, v.etaMin) := by
  have c1 : ((v.ntth - 1 : Nat) : ℝ) = v.ntth - 1 := by rw [Nat.cast_sub ht]; simp
  have c2 : ((v.neta - 1 : Nat) : ℝ) = v.neta - 1 := by rw [Nat.cast_sub he]; simp
  unfold View.extent View.tthVec View.etaVec
  rw [getLast_range_map _ _ ht, getLast_range_map _ _ he, head_range_map _ _ ht, head_range_map _ _ he]
  simp only [Option.bind_eq_bind, Option.bind_some, Option.pure_def, c1, c2, Option.some.injEq, Prod.mk.injEq]
  unfold radians
  refine ⟨?_, ?_, ?_, ?_⟩ <;> push_cast <;> ring

/-- C74: when the window is a whole number of cells the extent is the window. -/
theorem extent_window (v : View) {m n : Nat} (hm : 0 < m) (hn : 0 < n) (hp : 0 < v.tthPix) (hq : 0 < v.etaPix)
    (ht : v.tthMax = v.tthMin + m * radians v.tthPix) (he : v.etaMax = v.etaMin + n * radians v.etaPix) :
    v.ntth = m ∧ v.neta = n ∧ v.extent = some (v.tthMin, v.tthMax, v.etaMax, v.etaMin) := by
  have hpi := Real.pi_pos
  have e1 : degrees (v.tthMax - v.tthMin) / v.tthPix = ((m : ℤ) : ℝ) := by
    rw [ht]; unfold degrees radians; push_cast; field_simp; ring
  have e2 : degrees (v.etaMax - v.etaMin) / v.etaPix = ((n : ℤ) : ℝ) := by
    rw [he]; unfold degrees radians; push_cast; field_simp; ring
  have h1 : v.ntth = m := by rw [View.ntth, e1, npRound_int]; simp
  have h2 : v.neta = n := by rw [View.neta, e2, npRound_int]; simp
  refine ⟨h1, h2, ?_⟩
  rw [extent_eq v (by omega) (by omega), h1, h2, ← ht, ← he]

/-- C74: `tth_to_pixel` of the centre of column `j` is `j + 1/2`: it counts columns from the edge of the image. -/
theorem tthToPixel_centre (v : View) (hp : 0 < v.tthPix) (j : Nat) :
    v.tthToPixel (v.tthMin + (j + 1 / 2) * radians v.tthPix) = j + 1 / 2 := by
  have := Real.pi_pos
  unfold View.tthToPixel degrees radians
  field_simp
  ring

/-! ### The warped image -/

theorem whereIdx_mem (l : List Bool) (k : Nat) : k ∈ whereIdx l ↔ l[k]? = some true := by
  unfold whereIdx
  rw [List.mem_filter, List.mem_range, List.getD_eq_getElem?_getD]
  constructor
  · rintro ⟨h1, h2⟩
    rw [List.getElem?_eq_getElem h1] at h2 ⊢
    simpa using h2
  · intro h
    exact ⟨(List.getElem?_eq_some_iff.1 h).1, by rw [h]; rfl⟩

theorem whereIdx_nodup (l : List Bool) : (whereIdx l).Nodup := List.nodup_range.filter _

theorem fold_add (idx : List Nat) (hnd : idx.Nodup) (g : Nat → ℝ) (out : List ℝ) :
    (idx.foldl (fun o e => o.set e (o.getD e 0 + g e)) out).length = out.length ∧
      ∀ k < out.length, (idx.foldl (fun o e => o.set e (o.getD e 0 + g e)) out)[k]? =
        some (out.getD k 0 + if k ∈ idx then g k else 0) := by
  induction idx generalizing out with
  | nil => exact ⟨rfl, fun k hk => by simp [List.getD_eq_getElem?_getD, hk]⟩
  | cons a idx ih =>
    rw [List.nodup_cons] at hnd
    obtain ⟨h1, h2⟩ := ih hnd.2 (out.set a (out.getD a 0 + g a))
    rw [List.length_set] at h1 h2
    refine ⟨h1, fun k hk => ?_⟩
    rw [List.foldl_cons, h2 k hk, Option.some.injEq]
    rcases eq_or_ne a k with rfl | hne
    · rw [if_neg hnd.1, if_pos List.mem_cons_self]
      simp [List.getD_eq_getElem?_getD, hk]
    · have : (k ∈ a :: idx) ↔ k ∈ idx := by simp [hne.symm]
      simp only [this]
      congr 1
      simp [List.getD_eq_getElem?_getD, List.getElem?_set_ne hne]

theorem fold_clear (idx : List Nat) (g : Nat → Bool) (out : List Bool) :
    (idx.foldl (fun o e => if g e then o.set e false else o) out).length = out.length ∧
      ∀ k < out.length, (idx.foldl (fun o e => if g e then o.set e false else o) out)[k]? =
        some (out.getD k false && !(decide (k ∈ idx) && g k)) := by
  induction idx generalizing out with
  | nil => exact ⟨rfl, fun k hk => by simp [List.getD_eq_getElem?_getD, hk]⟩
  | cons a idx ih =>
    obtain ⟨h1, h2⟩ := ih (if g a then out.set a false else out)
    have hl : (if g a then out.set a false else out).length = out.length := by split <;> simp
    rw [hl] at h1 h2
    refine ⟨h1, fun k hk => ?_⟩
    rw [List.foldl_cons, h2 k hk, Option.some.injEq]
    rcases eq_or_ne a k with rfl | hne
    · cases hg : g a <;> simp [List.getD_eq_getElem?_getD, hk]
    · have e : (if g a then out.set a false else out).getD k false = out.getD k false := by
        split
        · simp [List.getD_eq_getElem?_getD, List.getElem?_set_ne hne]
        · rfl
      rw [e]
      simp [hne.symm]

/-- The mapping of a detector with at least two rows and columns. -/
theorem genMapping_eq (v : View) (d : Det) (h2 : 2 ≤ d.panel.rows) (h3 : 2 ≤ d.panel.cols) (hr : 0 < d.panel.psr)
    (hc : 0 < d.panel.psc) : ∃ m, genMapping v d = some m ∧
      m.onPanelIdx = whereIdx ((v.grid.map d.proj).map (onPanelNan d)) ∧
      m.xyClip = m.onPanelIdx.map (fun k => ((v.grid.map d.proj).getD k none).getD (0, 0)) ∧
      m.iFloor = m.xyClip.map (fun q => rowFloor d.panel q.2) ∧ m.jFloor = m.xyClip.map (fun q => colFloor d.panel q.1) := by
  unfold genMapping
  simp only [rows_cells d.panel h2 hr, cols_cells d.panel h3 hc, Option.bind_eq_bind, Option.bind_some, Option.pure_def]
  refine ⟨_, rfl, rfl, rfl, ?_, ?_⟩ <;> simp [Function.comp_def]

theorem zip_maps {α β γ δ : Type} (l : List α) (f : α → β) (g : α → γ) (h : α → δ) :
    l.zip ((l.map f).zip ((l.map g).zip (l.map h))) = l.map fun a => (a, f a, g a, h a) := by
  induction l with
  | nil => rfl
  | cons a l ih => simp [ih]

theorem zip_maps2 {α γ δ : Type} (l : List α) (g : α → γ) (h : α → δ) :
    l.zip ((l.map g).zip (l.map h)) = l.map fun a => (a, g a, h a) := by
  induction l with
  | nil => rfl
  | cons a l ih => simp [ih]

/-- A panel the interpolation is defined on: at least two rows and columns, and positive pixel sizes. -/
def Regular (d : Det) : Prop := 2 ≤ d.panel.rows ∧ 2 ≤ d.panel.cols ∧ 0 < d.panel.psr ∧ 0 < d.panel.psc

theorem contribution_eq {d : Det} (h : Regular d) (img : Nat → Nat → ℝ) (ang : ℝ × ℝ) :
    contribution d img ang = if onPanelNan d (d.proj ang) then
      bilinearAt d.panel img ((d.proj ang).getD (0, 0)) (rowFloor d.panel ((d.proj ang).getD (0, 0)).2)
        (colFloor d.panel ((d.proj ang).getD (0, 0)).1) else 0 := by
  obtain ⟨h2, h3, hr, hc⟩ := h
  unfold contribution
  cases hp : d.proj ang with
  | none => simp [onPanelNan]
  | some xy =>
    simp only [bilinear_points d.panel h2 h3 hr hc, onPanelNan, Option.getD_some, List.map_cons, List.map_nil]
    by_cases ho : onPanel d.panel d.buf true xy = true <;> simp [ho]

theorem fixIndex_eq (i : Int) (n : Int) (hn : 0 ≤ n) : fixIndex i 0 n = max 0 (min i n) := by
  unfold fixIndex; split
  · omega
  · split <;> omega

theorem sees_iff {d : Det} (h : Regular d) (ang : ℝ × ℝ) :
    Sees d ang ↔ onPanelNan d (d.proj ang) = true ∧
      neighboursOpen d (rowFloor d.panel ((d.proj ang).getD (0, 0)).2)
        (colFloor d.panel ((d.proj ang).getD (0, 0)).1) = true := by
  obtain ⟨h2, h3, hr, hc⟩ := h
  have r0 : (0 : Int) ≤ (d.panel.rows : Int) - 1 := by omega
  have c0 : (0 : Int) ≤ (d.panel.cols : Int) - 1 := by omega
  unfold Sees neighboursOpen
  cases hp : d.proj ang with
  | none => simp [onPanelNan]
  | some xy =>
    simp only [Option.some.injEq, exists_eq_left', onPanelNan, Option.getD_some, row_cell d.panel h2 hr,
      col_cell d.panel h3 hc, fixIndex_eq _ _ r0, fixIndex_eq _ _ c0, Bool.and_eq_true]
    constructor
    · rintro ⟨a, iF, jF, rfl, rfl, b⟩
      exact ⟨a, ⟨⟨b _ _ (Or.inl rfl) (Or.inl rfl), b _ _ (Or.inl rfl) (Or.inr rfl)⟩, b _ _ (Or.inr rfl) (Or.inl rfl)⟩,
        b _ _ (Or.inr rfl) (Or.inr rfl)⟩
    · rintro ⟨a, ⟨⟨b1, b2⟩, b3⟩, b4⟩
      refine ⟨a, _, _, rfl, rfl, ?_⟩
      rintro i j (rfl | rfl) (rfl | rfl) <;> assumption

theorem mem_where {v : View} {d : Det} {k : Nat} {ang : ℝ × ℝ} (hk : v.grid[k]? = some ang) :
    k ∈ whereIdx ((v.grid.map d.proj).map (onPanelNan d)) ↔ onPanelNan d (d.proj ang) = true := by
  rw [whereIdx_mem]; simp [hk]

theorem getD_proj {v : View} {d : Det} {k : Nat} {ang : ℝ × ℝ} (hk : v.grid[k]? = some ang) :
    (v.grid.map d.proj).getD k none = d.proj ang := by
  rw [List.getD_eq_getElem?_getD, List.getElem?_map, hk]; rfl

theorem addInPlace_spec {v : View} {d : Det} (h : Regular d) {m : Mapping} (hm : genMapping v d = some m)
    (img : Nat → Nat → ℝ) (out : List ℝ) (hl : out.length = v.grid.length) :
    (addInPlace d.panel m img out).length = v.grid.length ∧ ∀ k ang, v.grid[k]? = some ang →
      (addInPlace d.panel m img out)[k]? = some (out.getD k 0 + contribution d img ang) := by
  obtain ⟨m', hm', e1, e2, e3, e4⟩ := genMapping_eq v d h.1 h.2.1 h.2.2.1 h.2.2.2
  rw [hm] at hm'
  obtain rfl := Option.some.inj hm'
  unfold addInPlace
  rw [e3, e4, e2, List.map_map, List.map_map, zip_maps, List.foldl_map]
  have := fold_add m.onPanelIdx (by rw [e1]; exact whereIdx_nodup _) (fun k => bilinearAt d.panel img
    (((v.grid.map d.proj).getD k none).getD (0, 0)) (rowFloor d.panel (((v.grid.map d.proj).getD k none).getD (0, 0)).2)
    (colFloor d.panel (((v.grid.map d.proj).getD k none).getD (0, 0)).1)) out
  obtain ⟨h1, h2⟩ := this
  refine ⟨by rw [← hl, ← h1]; rfl, fun k ang hk => ?_⟩
  have hkl : k < out.length := by rw [hl]; exact (List.getElem?_eq_some_iff.1 hk).1
  refine (h2 k hkl).trans ?_
  rw [contribution_eq h, Option.some.injEq]
  congr 1
  rw [e1]
  simp only [mem_where hk, getD_proj hk]

theorem clearMask_spec {v : View} {d : Det} (h : Regular d) {m : Mapping} (hm : genMapping v d = some m)
    (out : List Bool) (hl : out.length = v.grid.length) :
    (clearMask d m out).length = v.grid.length ∧ ∀ k ang, v.grid[k]? = some ang →
      ∃ b, (clearMask d m out)[k]? = some b ∧ (b = true ↔ out.getD k false = true ∧ ¬ Sees d ang) := by
  obtain ⟨m', hm', e1, e2, e3, e4⟩ := genMapping_eq v d h.1 h.2.1 h.2.2.1 h.2.2.2
  rw [hm] at hm'
  obtain rfl := Option.some.inj hm'
  unfold clearMask
  rw [e3, e4, e2, List.map_map, List.map_map, zip_maps2, List.foldl_map]
  have := fold_clear m.onPanelIdx (fun k => neighboursOpen d
    (rowFloor d.panel (((v.grid.map d.proj).getD k none).getD (0, 0)).2)
    (colFloor d.panel (((v.grid.map d.proj).getD k none).getD (0, 0)).1)) out
  obtain ⟨h1, h2⟩ := this
  refine ⟨by rw [← hl, ← h1]; rfl, fun k ang hk => ?_⟩
  have hkl : k < out.length := by rw [hl]; exact (List.getElem?_eq_some_iff.1 hk).1
  refine ⟨_, h2 k hkl, ?_⟩
  rw [sees_iff h, e1]
  simp only [mem_where hk, getD_proj hk]
  cases out.getD k false <;> cases onPanelNan d (d.proj ang) <;> simp

theorem mapM_forall {α β : Type} {f : α → Option β} {l : List α} {r : List β} (h : l.mapM f = some r) :
    List.Forall₂ (fun a b => f a = some b) l r := by
  induction l generalizing r with
  | nil => simp at h; subst h; exact List.Forall₂.nil
  | cons a l ih =>
    rw [List.mapM_cons] at h
    cases hfa : f a with
    | none => simp [hfa] at h
    | some b =>
      cases hl : l.mapM f with
      | none => simp [hfa, hl] at h
      | some bs =>
        simp [hfa, hl] at h
        subst h
        exact List.Forall₂.cons hfa (ih hl)

theorem mapM_exists {α β : Type} {f : α → Option β} {l : List α} (h : ∀ a ∈ l, ∃ b, f a = some b) :
    ∃ r, l.mapM f = some r := by
  induction l with
  | nil => exact ⟨[], rfl⟩
  | cons a l ih =>
    obtain ⟨b, hb⟩ := h a (by simp)
    obtain ⟨r, hr⟩ := ih fun x hx => h x (by simp [hx])
    exact ⟨b :: r, by simp [List.mapM_cons, hb, hr]⟩

theorem fold_images {v : View} {dets : List Det} (hreg : ∀ d ∈ dets, Regular d) {ms : List Mapping}
    (hms : List.Forall₂ (fun d m => genMapping v d = some m) dets ms) {imgs : List (Nat → Nat → ℝ)}
    (hi : imgs.length = dets.length) (out : List ℝ) (hl : out.length = v.grid.length) :
    (((dets.zip ms).zip imgs).foldl (fun o e => addInPlace e.1.1.panel e.1.2 e.2 o) out).length = v.grid.length ∧
      ∀ k ang, v.grid[k]? = some ang →
        (((dets.zip ms).zip imgs).foldl (fun o e => addInPlace e.1.1.panel e.1.2 e.2 o) out)[k]? =
          some (out.getD k 0 + (List.zipWith (fun d img => contribution d img ang) dets imgs).sum) := by
  induction hms generalizing imgs out with
  | nil =>
    refine ⟨by simpa using hl, fun k ang hk => ?_⟩
    have : k < out.length := by rw [hl]; exact (List.getElem?_eq_some_iff.1 hk).1
    simp [List.getD_eq_getElem?_getD, this]
  | @cons d m dets ms hm hms ih =>
    cases imgs with
    | nil => simp at hi
    | cons img imgs =>
      obtain ⟨a1, a2⟩ := addInPlace_spec (hreg d (by simp)) hm img out hl
      obtain ⟨b1, b2⟩ := ih (fun d hd => hreg d (by simp [hd])) (imgs := imgs) (by simpa using hi) _ a1
      simp only [List.zip_cons_cons, List.foldl_cons]
      refine ⟨b1, fun k ang hk => ?_⟩
      rw [b2 k ang hk, List.getD_eq_getElem?_getD, a2 k ang hk]
      simp [add_assoc]

theorem fold_masks {v : View} {dets : List Det} (hreg : ∀ d ∈ dets, Regular d) {ms : List Mapping}
    (hms : List.Forall₂ (fun d m => genMapping v d = some m) dets ms) (out : List Bool)
    (hl : out.length = v.grid.length) :
    ((dets.zip ms).foldl (fun mask dm => clearMask dm.1 dm.2 mask) out).length = v.grid.length ∧
      ∀ k ang, v.grid[k]? = some ang →
        ∃ b, ((dets.zip ms).foldl (fun mask dm => clearMask dm.1 dm.2 mask) out)[k]? = some b ∧
          (b = true ↔ out.getD k false = true ∧ ∀ d ∈ dets, ¬ Sees d ang) := by
  induction hms generalizing out with
  | nil =>
    refine ⟨by simpa using hl, fun k ang hk => ?_⟩
    have : k < out.length := by rw [hl]; exact (List.getElem?_eq_some_iff.1 hk).1
    exact ⟨out[k], by simp [this], by simp [List.getD_eq_getElem?_getD, this]⟩
  | @cons d m dets ms hm hms ih =>
    obtain ⟨a1, a2⟩ := clearMask_spec (hreg d (by simp)) hm out hl
    obtain ⟨b1, b2⟩ := ih (fun d hd => hreg d (by simp [hd])) _ a1
    simp only [List.zip_cons_cons, List.foldl_cons]
    refine ⟨b1, fun k ang hk => ?_⟩
    obtain ⟨b, hb, hb'⟩ := b2 k ang hk
    obtain ⟨c, hc, hc'⟩ := a2 k ang hk
    refine ⟨b, hb, ?_⟩
    rw [hb', List.getD_eq_getElem?_getD, hc, Option.getD_some, hc']
    simp [and_assoc]

/-- C74: every pixel of the polar image is the sum, over the detectors, of the interpolated intensity at the point its
angles project to; it is masked exactly when no detector sees the angles. -/
theorem warp_value (v : View) {dets : List Det} (hreg : ∀ d ∈ dets, Regular d) {imgs : List (Nat → Nat → ℝ)}
    (hi : imgs.length = dets.length) :
    ∃ out, warpImage v dets imgs = some out ∧ out.length = v.grid.length ∧ ∀ (k : Nat) (ang : ℝ × ℝ), v.grid[k]? = some ang →
      ∃ masked : Bool, out[k]? = some ((List.zipWith (fun d img => contribution d img ang) dets imgs).sum, masked) ∧
        (masked = true ↔ ∀ d ∈ dets, ¬ Sees d ang) := by
  obtain ⟨ms, hms⟩ := mapM_exists (f := genMapping v) (l := dets) fun d hd =>
    let ⟨m, h, _⟩ := genMapping_eq v d (hreg d hd).1 (hreg d hd).2.1 (hreg d hd).2.2.1 (hreg d hd).2.2.2; ⟨m, h⟩
  have hf := mapM_forall hms
  obtain ⟨a1, a2⟩ := fold_images hreg hf hi (List.replicate v.grid.length 0) (by simp)
  obtain ⟨b1, b2⟩ := fold_masks hreg hf (List.replicate v.grid.length true) (by simp)
  refine ⟨_, by unfold warpImage; rw [hms]; rfl, ?_, fun k ang hk => ?_⟩
  · simp only [warpFromMap, nanMask, List.length_zip, a1, b1, min_self]
  · have hkl := (List.getElem?_eq_some_iff.1 hk).1
    obtain ⟨b, hb, hb'⟩ := b2 k ang hk
    have ha := a2 k ang hk
    refine ⟨b, ?_, ?_⟩
    · simp only [warpFromMap, nanMask]
      rw [List.getElem?_zip_eq_some]
      refine ⟨?_, hb⟩
      rw [ha]; simp [List.getD_eq_getElem?_getD, hkl]
    · rw [hb']; simp [List.getD_eq_getElem?_getD, hkl]

/-- C74: for an instrument that does not change, a caching view returns, call after call, what a view without a cache
returns. -/
theorem cached_warp (v : View) (dets : List Det) (imgs : List (Nat → Nat → ℝ)) :
    (mkCached v dets).map (fun c => c.warpImage imgs) = warpImage v dets imgs := by
  unfold mkCached warpImage Cached.warpImage
  cases dets.mapM (genMapping v) <;> rfl

/-- C74: on a point it projects to, a detector with a uniform image contributes the uniform value. -/
theorem contribution_constant {d : Det} (h2 : 2 ≤ d.panel.rows) (h3 : 2 ≤ d.panel.cols) (hr : 2 * Grid.ztol < d.panel.psr)
    (hc : 2 * Grid.ztol < d.panel.psc) {ang : ℝ × ℝ} (hs : Sees d ang) (c : ℝ) : contribution d (fun _ _ => c) ang = c := by
  obtain ⟨xy, hp, hon, -⟩ := hs
  unfold contribution
  rw [hp]
  simp only [bilinear_constant h2 h3 hr hc xy hon]

/-- C74: without a buffer the detector sees exactly the angles that project onto it. -/
theorem sees_no_buffer {d : Det} (h : Regular d) (hb : d.buf = .none) (ang : ℝ × ℝ) :
    Sees d ang ↔ ∃ xy, d.proj ang = some xy ∧ |xy.1| ≤ d.panel.cols * d.panel.psc / 2 ∧
      |xy.2| ≤ d.panel.rows * d.panel.psr / 2 := by
  rw [sees_iff h]
  cases hp : d.proj ang with
  | none => simp [onPanelNan]
  | some xy =>
    simp only [onPanelNan, neighboursOpen, hb, bufferAs2d, Bool.and_self, and_true, Option.some.injEq, exists_eq_left']
    simp only [onPanel, Panel.colDim, Panel.rowDim]
    constructor
    · intro h'
      simp [abs_le] at h' ⊢
      constructor <;> constructor <;> linarith [h'.1.1, h'.1.2, h'.2.1, h'.2.2]
    · intro h'
      simp [abs_le] at h' ⊢
      constructor <;> constructor <;> linarith [h'.1.1, h'.1.2, h'.2.1, h'.2.2]

/-! ### The projections -/

theorem frame_x {b : V} {r : M} (hF : IsBeamFrame b ![1, 0, 0] r) : (![1, 0, 0] : V) ⨯₃ b ≠ 0 := by
  intro h0
  obtain ⟨hR, ⟨-, c, hc, hb⟩, h1, h2⟩ := hF
  obtain ⟨a00, a11, a22, a01, a02, a12⟩ := rot_entries hR.1
  have e1 := congrFun h0 1
  have e2 := congrFun h0 2
  simp [hb, cross_apply, hc.ne'] at e1 e2
  simp [dotProduct, Fin.sum_univ_three] at h2
  simp [e1, e2] at a02 a22
  rcases a02 with h | h
  · exact h2.ne' h
  · rw [h] at a22; norm_num at a22

theorem planar_lab {b : V} {r : M} (hF : IsBeamFrame b ![1, 0, 0] r) (chi : ℝ) (ang : ℝ × ℝ) :
    reflected (fun i => -r i 2) (sampleRmat chi 0 *ᵥ ((1 : M) *ᵥ
      anglesToGvec ang.1 ang.2 0 b ![1, 0, 0] chi 1)) = direction r ang.1 ang.2 := by
  have hbe := frame_x hF
  have hEq : eigenBeamFrame b ![1, 0, 0] = r := isBeamFrame_unique (eigenBeamFrame_isBeamFrame hbe) hF
  rw [← dvec_is_reflection hbe hF.2.1 isRotation_one]
  simp only [← mulV_eq, anglesToDvec]
  rw [lab_of_toCrystal isRotation_one, hEq, mulV_eq]
  rfl

/-- C74: for a planar detector the point is where the ray that leaves the sample position in the direction with the
given two angles meets the detector plane, whatever the tilt of the stage; the azimuth is counted from the laboratory
x axis. -/
theorem planar_point {b : V} (hB : BeamResolved b) {r rd : M} (hF : IsBeamFrame b ![1, 0, 0] r) (hd : IsRotation rd)
    {td tvec : V} {chi : ℝ} {ang xy : ℝ × ℝ} (h : projPlanar rd td b chi tvec ang = some xy) :
    Hits rd td tvec (direction r ang.1 ang.2) xy := by
  have := gvecToXY_hits hB hF.2.1 hd h
  rwa [planar_lab hF, crystalPosition, mulVec_zero, add_zero] at this

/-- C74: and every such point is found, unless the ray is parallel to the detector. -/
theorem planar_complete {b : V} (hB : BeamResolved b) {r rd : M} (hF : IsBeamFrame b ![1, 0, 0] r)
    (hd : IsRotation rd) {td tvec : V} {chi : ℝ} {ang xy : ℝ × ℝ} (h : Hits rd td tvec (direction r ang.1 ang.2) xy)
    (hp : (fun i => rd i 2) ⬝ᵥ direction r ang.1 ang.2 ≠ 0) : projPlanar rd td b chi tvec ang = some xy := by
  refine gvecToXY_complete hB hF.2.1 hd ?_ ?_
  · rwa [planar_lab hF, crystalPosition, mulVec_zero, add_zero]
  · rwa [planar_lab hF]

theorem cyl_lab {b : V} {r : M} (hF : IsBeamFrame b ![1, 0, 0] r) (ang : ℝ × ℝ) :
    anglesToDvec ang.1 ang.2 0 b ![1, 0, 0] 0 1 = direction r ang.1 ang.2 := by
  have hbe := frame_x hF
  have hEq : eigenBeamFrame b ![1, 0, 0] = r := isBeamFrame_unique (eigenBeamFrame_isBeamFrame hbe) hF
  have e4 : ∀ v : V, mulTV (1 : M) (mulTV (sampleRmat 0 0) v) = v := by
    intro v; ext i; fin_cases i <;> simp [mulTV, sampleRmat]
  unfold anglesToDvec
  rw [toCrystal_eq, e4, hEq, mulV_eq]
  rfl

/-- C74, for a cylindrical detector around the origin and an untilted stage: the point is the one of the panel that the
ray from the origin in the direction with the two angles meets.  Missing: a tilted stage and a displaced sample, for
which the code does not do this (`cylinder_ignores_sample`, `Cylinder.projectAngles_tilted_stage`). -/
theorem cylinder_point_partial {pn : Cylinder.Panel} (h : IsRotation pn.rmat) (hr : 0 < pn.radius)
    (hw : pn.physicalSize.2 ≤ 2 * Real.pi * pn.radius) {b : V} {r : M} (hF : IsBeamFrame b ![1, 0, 0] r)
    (hin : Cylinder.Spec.Inside pn.rmat pn.tvec pn.radius 0) {ang : ℝ × ℝ}
    (hax : 1 / 10 ^ 10 ≤ 1 - (direction r ang.1 ang.2 ⬝ᵥ (pn.rmat *ᵥ ![0, 1, 0])) ^ 2) (xy : ℝ × ℝ) :
    projCylinder pn b 0 ang = some xy ↔ Cylinder.Spec.RayHits pn.rmat pn.tvec pn.radius (pn.rows * pn.psr)
      (pn.cols * pn.psc) 0 (direction r ang.1 ang.2) xy := by
  have h0 : crystalPosition 1 0 0 = 0 := by simp [crystalPosition]
  have hu : IsUnit3 (direction r ang.1 ang.2) := by
    have := (anglesToDvec_twoTheta (frame_x hF) hF.2.1 isRotation_one ang.1 ang.2 0 0).1
    rwa [cyl_lab hF] at this
  have key := Cylinder.projection_exact h hr hw (ts := 0) (tc := 0) (rs := 1) hu (by rwa [h0]) hax xy
  rw [h0] at key
  rw [← key]
  unfold projCylinder Cylinder.projectAngles
  rw [cyl_lab hF]
  rcases Cylinder.dvecToXY pn (direction r ang.1 ang.2) 0 0 1 with ⟨q, f⟩
  cases f <;> simp

/-! ### Azimuthal bins -/

theorem pyInt_nonneg {x : ℝ} (h : 0 ≤ x) : pyInt x = ⌊x⌋ := if_pos h

/-- C74: the rows averaged for bin `i` are those whose upper edge is within the integration range of the bin's centre,
the lower end excluded, when the range does not reach below the first row. -/
theorem bin_rows (v : View) {interval range : ℝ} (hp : 0 < v.etaPix) (hr : 0 ≤ range) {n i k : Nat}
    (h0 : range ≤ (i + 1) * interval) (hk : k < n) :
    inSlice n (binSlice v interval range i).1 (binSlice v interval range i).2 k = true ↔
      (i + 1) * interval - range < (k + 1) * v.etaPix ∧ (k + 1) * v.etaPix ≤ (i + 1) * interval + range := by
  have hA : 0 ≤ ((i + 1) * interval - range) / v.etaPix := div_nonneg (by linarith) hp.le
  have hB : 0 ≤ ((i + 1) * interval + range) / v.etaPix := div_nonneg (by linarith) hp.le
  unfold binSlice inSlice sliceBound
  simp only [pyInt_nonneg hA, pyInt_nonneg hB]
  have fA := Int.floor_nonneg.2 hA
  have fB := Int.floor_nonneg.2 hB
  rw [if_neg (by omega), if_neg (by omega), decide_eq_true_eq, ← div_lt_iff₀ hp, ← le_div_iff₀ hp]
  have e1 : (min ⌊((i + 1) * interval - range) / v.etaPix⌋ n ≤ (k : ℤ)) ↔
      ((i + 1) * interval - range) / v.etaPix < k + 1 := by
    have : ((i + 1) * interval - range) / v.etaPix < ((k + 1 : ℤ) : ℝ) ↔ _ := Int.floor_lt.symm
    push_cast at this
    rw [this]; omega
  have e2 : ((k : ℤ) < min ⌊((i + 1) * interval + range) / v.etaPix⌋ n) ↔
      (k + 1 : ℝ) ≤ ((i + 1) * interval + range) / v.etaPix := by
    have : ((k + 1 : ℤ) : ℝ) ≤ ((i + 1) * interval + range) / v.etaPix ↔ _ := Int.le_floor.symm
    push_cast at this
    rw [this]; omega
  rw [e1, e2]

theorem nanmean_spec (l : List (Option ℝ)) (m : ℝ) :
    nanmean l = some m ↔ l.filterMap id ≠ [] ∧ m * (l.filterMap id).length = (l.filterMap id).sum := by
  unfold nanmean
  rcases eq_or_ne (l.filterMap id) [] with h | h
  · rw [h]; simp
  · have hl : (l.filterMap id).length ≠ 0 := by simpa using h
    have hl' : ((l.filterMap id).length : ℝ) ≠ 0 := by exact_mod_cast hl
    simp only [if_neg hl, Option.some.injEq, div_eq_iff hl', ne_eq, h, not_false_eq_true, true_and]
    exact eq_comm

/-- C74: an entry of the binned image is the mean of the entries of the same column, in the rows of the bin, that are
not NaN; it is NaN when there is none. -/
theorem bin_value (v : View) {interval range : ℝ} (hp : 0 < v.etaPix) (hr : 0 ≤ range) {n i : Nat}
    (h0 : range ≤ (i + 1) * interval) (pv : Nat → Nat → Option ℝ) (j : Nat) :
    ∃ rows : List Nat, rows.Nodup ∧ (∀ k, k ∈ rows ↔ k < n ∧ (i + 1) * interval - range < (k + 1) * v.etaPix ∧
        (k + 1) * v.etaPix ≤ (i + 1) * interval + range) ∧
      ∀ m, binEntry v interval range n pv i j = some m ↔
        rows.filterMap (fun k => pv k j) ≠ [] ∧
          m * (rows.filterMap fun k => pv k j).length = (rows.filterMap fun k => pv k j).sum := by
  refine ⟨(List.range n).filter (inSlice n (binSlice v interval range i).1 (binSlice v interval range i).2),
    List.nodup_range.filter _, fun k => ?_, fun m => ?_⟩
  · rw [List.mem_filter, List.mem_range]
    constructor
    · rintro ⟨h1, h2⟩; exact ⟨h1, (bin_rows v hp hr h0 h1).1 h2⟩
    · rintro ⟨h1, h2⟩; exact ⟨h1, (bin_rows v hp hr h0 h1).2 h2⟩
  · unfold binEntry
    rw [nanmean_spec, List.filterMap_map]
    rfl

/-! ### Cases that meet the hypotheses, and where the code departs from what one expects -/

theorem frame_default : IsBeamFrame ![0, 0, -1] ![1, 0, 0] 1 := by
  have := eigenBeamFrame_isBeamFrame Cylinder.demo_frame
  rwa [default_frame] at this

/-- The planar projection of the demonstration of C48: two-theta of 60 degrees, eta zero, detector one metre away. -/
theorem demo_planar : projPlanar 1 ![0, 0, -1000] ![0, 0, -1] 0 0 (Real.pi / 3, 0) = some (1000 * √3, 0) := demo_hit

/-- Disagreement: the azimuth reference of the instrument is not passed to the projection.  For an instrument whose
reference is the laboratory y axis the direction with azimuth zero meets the detector on its y axis, but the polar view
reads it on the x axis. -/
theorem evec_ignored : ∃ r : M, IsBeamFrame ![0, 0, -1] ![0, 1, 0] r ∧
    Hits 1 ![0, 0, -1000] 0 (direction r (Real.pi / 3) 0) (0, 1000 * √3) ∧
    projPlanar 1 ![0, 0, -1000] ![0, 0, -1] 0 0 (Real.pi / 3, 0) = some (1000 * √3, 0) := by
  refine ⟨!![0, -1, 0; 1, 0, 0; 0, 0, 1], ⟨⟨?_, ?_⟩, ⟨?_, 1, one_pos, ?_⟩, ?_, ?_⟩, ⟨2000, by norm_num, ?_⟩, demo_planar⟩
  · ext i j; fin_cases i <;> fin_cases j <;> simp [Matrix.mul_apply, Fin.sum_univ_three]
  · simp [Matrix.det_fin_three]
  · simp [IsUnit3, dotProduct, Fin.sum_univ_three]
  · ext i; fin_cases i <;> simp
  · simp [dotProduct, Fin.sum_univ_three]
  · simp [dotProduct, Fin.sum_univ_three]
  · ext i; fin_cases i <;> simp [direction, Matrix.one_apply] <;> ring

/-- Disagreement: for a cylindrical detector the projection does not depend on where the instrument puts the sample:
for a sample moved along y the direct beam is still reported at the centre of the panel. -/
theorem cylinder_ignores_sample (y : ℝ) (hy : y ≠ 0) :
    projCylinder Cylinder.demo ![0, 0, -1] 0 (0, 0) = some (0, 0) ∧
      ¬ Cylinder.Spec.RayHits Cylinder.demo.rmat Cylinder.demo.tvec Cylinder.demo.radius
        (Cylinder.demo.rows * Cylinder.demo.psr) (Cylinder.demo.cols * Cylinder.demo.psc) ![0, y, 0]
        (direction 1 0 0) (0, 0) := by
  constructor
  · have := (Cylinder.projectAngles_tilted_stage (chi := 0) (by simp; positivity)).1
    unfold projCylinder
    simp [this]
  · rintro ⟨-, -, s, -, e⟩
    have := congrFun e 1
    simp [direction, Cylinder.Spec.sheet, Cylinder.demo] at this
    exact hy this

/-- Disagreement: when the integration range is larger than the interval the first slice starts below zero, NumPy counts
its start from the end, and the bin is NaN although rows in range exist. -/
theorem bin_wraps (v : View) (hv : v.etaPix = 1) (pv : Nat → Nat → Option ℝ) (j : Nat) :
    binEntry v 1 2 10 pv 0 j = none := by
  have hs : binSlice v 1 2 0 = (-1, 3) := by
    unfold binSlice pyInt
    rw [hv]
    norm_num
  unfold binEntry
  rw [hs]
  rfl

/-- C74: the binned image has a bin for every centre that is at least an interval away from both ends of the view, and
no other bin. -/
theorem bin_count (v : View) {interval : ℝ} (hi : 0 < interval) (hv : degrees v.etaMin ≤ degrees v.etaMax) (i : Nat) :
    (i : Int) < nspec v interval ↔
      degrees v.etaMin + (i + 1) * interval ≤ degrees v.etaMax - interval := by
  unfold nspec
  rw [pyInt_nonneg (div_nonneg (by linarith) hi.le)]
  have e : ((i : Int) < ⌊(degrees v.etaMax - degrees v.etaMin) / interval⌋ - 1) ↔
      (((i + 2 : ℤ)) : ℝ) ≤ (degrees v.etaMax - degrees v.etaMin) / interval := by
    rw [← Int.le_floor]; omega
  rw [e, le_div_iff₀ hi]
  push_cast
  constructor <;> intro h <;> linarith

/-- A view and a detector that meet the hypotheses of the theorems above. -/
noncomputable def demoView : View := ⟨0, radians 10, 0, radians 20, 1, 2⟩
noncomputable def demoDet : Det :=
  ⟨⟨4, 6, 1 / 10, 1 / 5⟩, .none, projPlanar 1 ![0, 0, -1000] ![0, 0, -1] 0 0⟩

example : demoView.ntth = 10 ∧ demoView.neta = 10 ∧ demoView.extent = some (0, radians 10, radians 20, 0) :=
  extent_window demoView (m := 10) (n := 10) (by norm_num) (by norm_num) one_pos two_pos
    (by simp [demoView, radians]; ring) (by simp [demoView, radians]; ring)

example : Regular demoDet := by
  simp [Regular, demoDet]

example : BeamResolved ![0, 0, -1] ∧ IsBeamFrame ![0, 0, -1] ![1, 0, 0] 1 := ⟨resolved_default, frame_default⟩

end Hexrd.Polar
