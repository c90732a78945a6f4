import Verif.Lemmas.FrameCache

/-!
# Properties of the frame cache (C05, C06, C07)

C05: writing a series to a frame cache and reading it back gives, for every
pixel, the original value if it is above the threshold and zero otherwise,
whatever the number of writer threads and however they interleave.

C06: metadata cannot change the frames that are read back (false for npz).

C07: the frame list is loaded at most once, and no thread sees a partially
loaded list.
-/
namespace Hexrd.FrameCache
variable {V : Type}

/-! ## C05 -/

/-- Specification: the frame a user expects back. -/
def thresholded (above : V → Bool) (zero : V) (im : Nat → Nat → V) (r c : Nat) : V :=
  if above (im r c) then im r c else zero

/-- C05 (fch5): for every interleaving of any number of writer threads, after the
writer finished, reading frame `i` gives back the thresholded frame, at every
pixel, for images up to 65536 × 65536. -/
theorem fch5_roundtrip (add : V → V → V) (zero : V) (hz : ∀ v, add zero v = v)
    (above : V → Bool) (w h n : Nat) (hw : w ≤ 65536) (hh : h ≤ 65536)
    (ims : Nat → Nat → Nat → V) (junk : Nat → Nat) (dflt : Entry V) (sched : List Nat)
    (hfin : Finished n (runSched n (fun i => extract above w h (ims i)) (initSt junk) sched))
    (i r c : Nat) (hi : i < n) (hr : r < w) (hc : c < h) :
    readPixel add zero
      (readFrame dflt (runSched n (fun i => extract above w h (ims i)) (initSt junk) sched) i) r c
      = thresholded above zero (ims i) r c := by
  obtain ⟨R, hI⟩ := inv_run n (fun i => extract above w h (ims i)) sched _ _ (inv_init n _ junk)
  rw [readFrame_done hI hfin dflt i hi]
  unfold readPixel thresholded
  rw [extract_filter above w h (ims i) hw hh r c hr hc]
  by_cases ha : above (ims i r c) <;> simp [ha, hz]

/-- The hypothesis `Finished` of `fch5_roundtrip` can be met for every input: one
thread doing all the work finishes. -/
theorem fch5_can_finish (n : Nat) (ents : Nat → List (Entry V)) (junk : Nat → Nat) :
    ∃ sched, Finished n (runSched n ents (initSt junk) sched) :=
  ⟨_, seq_finish n ents n (initSt junk) (fun _ => rfl) (by simp [initSt])⟩

/-- C05 (fch5): at no moment of any schedule does the writer reserve space beyond
the datasets' allocated length `nframes * rows * cols` (save.py:472, 478), nor
use space reserved by another frame: the reserved length is at most the total. -/
theorem fch5_within_dataset (above : V → Bool) (w h n : Nat) (ims : Nat → Nat → Nat → V)
    (junk : Nat → Nat) (sched : List Nat) :
    (runSched n (fun i => extract above w h (ims i)) (initSt junk) sched).filePos ≤ n * (w * h) := by
  obtain ⟨R, hI⟩ := inv_run n (fun i => extract above w h (ims i)) sched _ _ (inv_init n _ junk)
  rw [hI.pos]
  exact resSum_le R _ _ (fun i => extract_length_le above w h (ims i)) n

-- A non-trivial case: two frames of 1×2 pixels, two threads interleaved; the
-- threads finish in an order different from the frame order.
example : Finished 2 (runSched 2 (fun i => extract (fun v : Nat => decide (v > 0)) 1 2
    (fun _ j => if j = i then 7 + i else 0)) (initSt fun _ => 99) [0,1,1,0,1,0,0,1,1,0,1,0]) ∧
    (runSched 2 (fun i => extract (fun v : Nat => decide (v > 0)) 1 2
    (fun _ j => if j = i then 7 + i else 0)) (initSt fun _ => 99) [0,1,1,0,1,0,0,1,1,0,1,0]).fid 0 = 1 := by
  refine ⟨⟨by decide, ?_⟩, by decide⟩
  intro t
  match t with
  | 0 => decide
  | 1 => decide
  | t + 2 => rw [runSched_pc_other _ _ _ _ _ (by simp)]; rfl

/-- C05 (npz): for every interleaving, once all tasks are done, the archive's
frame arrays read back as the thresholded frame at every pixel. -/
theorem npz_roundtrip (add : V → V → V) (zero : V) (hz : ∀ v, add zero v = v)
    (above : V → Bool) (w h n : Nat) (hw : w ≤ 65536) (hh : h ≤ 65536)
    (ims : Nat → Nat → Nat → V) (sched : List Nat)
    (hnext : (npzRun n (fun i => extract above w h (ims i)) npzInit sched).next = n)
    (hidle : ∀ t, (npzRun n (fun i => extract above w h (ims i)) npzInit sched).pc t = .idle)
    (i : Nat) (hi : i < n) :
    ∃ es, npzReadFrame (npzRun n (fun i => extract above w h (ims i)) npzInit sched).arrd i = some es ∧
      ∀ r c, r < w → c < h → readPixel add zero es r c = thresholded above zero (ims i) r c := by
  have hI := ninv_run n (fun i => extract above w h (ims i)) sched _ (ninv_init n _)
  obtain ⟨h1, h2, h3⟩ := hI.done i (by omega) (fun t => by rw [hidle t]; simp [ntask])
  refine ⟨extract above w h (ims i), ?_, ?_⟩
  · unfold npzReadFrame
    rw [h1, h2, h3]
    simp [zip_entries]
  · intro r c hr hc
    unfold readPixel thresholded
    rw [extract_filter above w h (ims i) hw hh r c hr hc]
    by_cases ha : above (ims i r c) <;> simp [ha, hz]

/-- The schedule-by-schedule dictionary plus the header is `npzBase`: the npz
dictionary does not depend on the schedule. -/
theorem npz_schedule_independent (w h n : Nat) (ents : Nat → List (Entry V)) (sched : List Nat)
    (hnext : (npzRun n ents npzInit sched).next = n)
    (hidle : ∀ t, (npzRun n ents npzInit sched).pc t = .idle) :
    npzUpdate (npzRun n ents npzInit sched).arrd
      [(.shape, .nats [w, h]), (.nframes, .nat n), (.dtype, .str "dtype")] = npzBase n w h ents := by
  have hI := ninv_run n ents sched _ (ninv_init n _)
  have nt : ∀ t i, ntask ((npzRun n ents npzInit sched).pc t) ≠ some i := by
    intro t i; rw [hidle t]; simp [ntask]
  funext k
  cases k with
  | row i =>
    simp only [npzUpdate, List.foldl_cons, List.foldl_nil, reduceCtorEq, if_false, npzBase]
    split
    · exact (hI.done i (by omega) (fun t => nt t i)).1
    · exact hI.keys _ (Or.inl ⟨i, by omega, Or.inl rfl⟩)
  | col i =>
    simp only [npzUpdate, List.foldl_cons, List.foldl_nil, reduceCtorEq, if_false, npzBase]
    split
    · exact (hI.done i (by omega) (fun t => nt t i)).2.1
    · exact hI.keys _ (Or.inl ⟨i, by omega, Or.inr (Or.inl rfl)⟩)
  | data i =>
    simp only [npzUpdate, List.foldl_cons, List.foldl_nil, reduceCtorEq, if_false, npzBase]
    split
    · exact (hI.done i (by omega) (fun t => nt t i)).2.2
    · exact hI.keys _ (Or.inl ⟨i, by omega, Or.inr (Or.inr rfl)⟩)
  | shape => simp [npzUpdate, npzBase]
  | nframes => simp [npzUpdate, npzBase]
  | dtype => simp [npzUpdate, npzBase]
  | other x =>
    simp only [npzUpdate, List.foldl_cons, List.foldl_nil, reduceCtorEq, if_false, npzBase]
    exact hI.keys _ (Or.inr (Or.inr (Or.inr (Or.inr ⟨x, rfl⟩))))

-- Non-trivial case: two threads, two frames.
example : (npzRun 2 (fun i => extract (fun v : Nat => decide (v > 0)) 1 2
    (fun _ j => if j = i then 7 else 0)) npzInit [0,1,1,0,1,1,0,0]).next = 2 ∧
    ∀ t, (npzRun 2 (fun i => extract (fun v : Nat => decide (v > 0)) 1 2
    (fun _ j => if j = i then 7 else 0)) npzInit [0,1,1,0,1,1,0,0]).pc t = .idle := by
  refine ⟨by decide, ?_⟩
  intro t
  match t with
  | 0 => decide
  | 1 => decide
  | t + 2 => rw [npzRun_pc_other _ _ _ _ _ (by simp)]; rfl

/-- C05, disagreement: for an image with more than 65536 rows, every pixel in a
row from 65536 on is lost — it reads back as zero even when above the
threshold — because the index buffers are `uint16`. -/
theorem tall_image_loses_pixels (add : V → V → V) (zero : V) (above : V → Bool) (w h : Nat)
    (im : Nat → Nat → V) (r c : Nat) (hr : 65536 ≤ r) :
    readPixel add zero (extract above w h im) r c = zero := by
  unfold readPixel
  have : (extract above w h im).filter (fun e => decide (e.row = r ∧ e.col = c)) = [] := by
    rw [List.filter_eq_nil_iff]
    intro e he
    unfold extract at he
    simp only [List.mem_flatMap, List.mem_filterMap] at he
    obtain ⟨i, _, j, _, he⟩ := he
    split at he
    · cases he
      have := Nat.mod_lt i (show 0 < 65536 by omega)
      simp; omega
    · cases he
  rw [this]; rfl

-- such a pixel exists: the thresholded frame is not zero there
example : thresholded (fun v : Nat => decide (v > 0)) 0 (fun _ _ => 5) 65536 0 ≠ 0 := by
  simp [thresholded]

/-! ## C06 -/

/-- A metadata key that the npz format itself uses for an `n`-frame series. -/
def Reserved (n : Nat) : NKey → Prop
  | .row i | .col i | .data i => i < n
  | .shape | .nframes | .dtype => True
  | .other _ => False

/-- C06, disagreement: a metadata entry whose key is `0_data` replaces the first
frame's values: the written archive reads back other pixels than without it. -/
theorem npz_metadata_can_change_frames :
    ∃ (ents : Nat → List (Entry Nat)) (md : List (NKey × NVal Nat)),
      npzReadFrame (npzBase 1 1 1 ents) 0 = some [⟨0, 0, 5⟩] ∧
      npzReadFrame (npzUpdate (npzBase 1 1 1 ents) md) 0 = some [⟨0, 0, 6⟩] :=
  ⟨fun _ => [⟨0, 0, 5⟩], [(.data 0, .vals [6])], rfl, rfl⟩

/-- C06, disagreement: metadata with a key `nframes` changes the length. -/
theorem npz_metadata_can_change_length :
    ∃ (ents : Nat → List (Entry Nat)) (md : List (NKey × NVal Nat)),
      npzUpdate (npzBase 1 1 1 ents) md .nframes = some (.nat 0) :=
  ⟨fun _ => [], [(.nframes, .nat 0)], rfl⟩

/-- C06, the part that holds (partial: restricted to metadata without reserved
keys): the frames, shape, number of frames and dtype are those written, and every
metadata entry reads back as written. -/
theorem npz_metadata_separate_partial (n w h : Nat) (ents : Nat → List (Entry V))
    (md : List (NKey × NVal V)) (hres : ∀ kv ∈ md, ¬ Reserved n kv.1)
    (hnd : (md.map Prod.fst).Nodup) :
    (∀ i, i < n → npzReadFrame (npzUpdate (npzBase n w h ents) md) i = some (ents i)) ∧
    npzUpdate (npzBase n w h ents) md .nframes = some (.nat n) ∧
    npzUpdate (npzBase n w h ents) md .shape = some (.nats [w, h]) ∧
    (∀ k v, (k, v) ∈ md → npzUpdate (npzBase n w h ents) md k = some v) := by
  have keep : ∀ k, Reserved n k → npzUpdate (npzBase n w h ents) md k = npzBase n w h ents k :=
    fun k hk => npzUpdate_notMem md k _ (fun kv hkv he => hres kv hkv (he ▸ hk))
  refine ⟨?_, ?_, ?_, ?_⟩
  · intro i hi
    unfold npzReadFrame
    rw [keep (.row i) hi, keep (.col i) hi, keep (.data i) hi]
    simp [npzBase, hi, zip_entries]
  · rw [keep .nframes trivial]; rfl
  · rw [keep .shape trivial]; rfl
  · intro k v h; exact npzUpdate_mem md k v hnd _ h

example : ∀ kv ∈ [(NKey.other "omega", NVal.vals [1, 2]), (NKey.row 5, NVal.nats [3])],
    ¬ Reserved 2 (kv : NKey × NVal Nat).1 := by
  intro kv h; simp at h; rcases h with rfl | rfl <;> simp [Reserved]

/-! ## C07 -/

/-- C07: in every execution of any number of threads, the frame list is loaded at
most once successfully. -/
theorem loaded_at_most_once {F : Type} (content : F) (evs : List (Nat × Bool)) :
    (lockRun content evs).loads ≤ 1 := by
  have hI := linv_run content evs
  by_cases hf : (lockRun content evs).flag = true
  · have := (hI.flag hf).2; omega
  · by_cases hl : ∃ t, (lockRun content evs).pc t = .loaded
    · obtain ⟨t, ht⟩ := hl; have := (hI.loaded t ht).2.1; omega
    · have := hI.noload (by simpa using hf) (fun t h => hl ⟨t, h⟩); omega

/-- C07: every thread that gets past the check sees the complete content. -/
theorem reader_sees_content {F : Type} (content : F) (evs : List (Nat × Bool)) (t : Nat)
    (h : (lockRun content evs).pc t = .use) : (lockRun content evs).frames = some content :=
  ((linv_run content evs).flag ((linv_run content evs).use t (Or.inl h))).1

/-- C07: at most one thread is inside the loading section at any time. -/
theorem mutual_exclusion {F : Type} (content : F) (evs : List (Nat × Bool)) (t u : Nat)
    (ht : (lockRun content evs).pc t = .loading) (hu : (lockRun content evs).pc u = .loading) : t = u := by
  have hI := linv_run content evs
  have a := (hI.crit t).1 (by rw [ht]; rfl)
  have b := (hI.crit u).1 (by rw [hu]; rfl)
  rw [a] at b; simpa using b

/-- C07: no deadlock, also after failed loads: while some thread is not finished,
some thread can take a step that moves it on. -/
theorem no_deadlock {F : Type} (content : F) (evs : List (Nat × Bool)) (t : Nat)
    (h1 : (lockRun content evs).pc t ≠ .use) (h2 : (lockRun content evs).pc t ≠ .failed) :
    ∃ u, ∀ ok, (lockStep content (lockRun content evs) (u, ok)).pc u ≠ (lockRun content evs).pc u := by
  have hI := linv_run content evs
  generalize lockRun content evs = s at *
  cases hl : s.lock with
  | some u =>
    refine ⟨u, ?_⟩
    intro ok
    have hc := (hI.crit u).2 hl
    unfold lockStep
    cases hp : s.pc u <;> rw [hp] at hc <;> simp [inCrit] at hc <;> simp only [hp]
    · split <;> simp [setPc]
    · split <;> simp [setPc]
    · simp [setPc]
    · simp [setPc]
  | none =>
    refine ⟨t, ?_⟩
    intro ok
    have hc : inCrit (s.pc t) = false := by
      cases h : inCrit (s.pc t)
      · rfl
      · have := (hI.crit t).1 h; rw [hl] at this; cases this
    unfold lockStep
    cases hp : s.pc t <;> rw [hp] at hc h1 h2 <;> simp [inCrit] at hc h1 h2 <;> simp only [hp]
    · split <;> simp [setPc]
    · rw [hl]; simp [setPc]

-- Three threads, the first load fails, the second thread retries and succeeds,
-- the third waits and then uses the list.
example : let s := lockRun (F := Nat) 42 [(0,true),(1,true),(2,true),(0,true),(0,true),(0,false),
      (1,true),(2,true),(1,true),(1,true),(1,true),(1,true),(2,true),(2,true),(2,true)]
    s.pc 0 = .failed ∧ s.pc 1 = .use ∧ s.pc 2 = .use ∧ s.frames = some 42 := by decide

end Hexrd.FrameCache
