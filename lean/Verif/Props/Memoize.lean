import Verif.Lemmas.Memoize
/-! # C02: memoised functions -/
namespace Hexrd.Memo
variable {A K V E : Type} [DecidableEq K]

/-- The outcome of calling the undecorated function. -/
def direct (f : A → Except E V) (a : A) : Res E V :=
  match f a with
  | .ok v => .val v
  | .error e => .raised e

/-- `set_cache_maxsize` is only ever given a positive size. -/
def PosMax : List (Op A) → Prop
  | [] => True
  | .call _ :: ops => PosMax ops
  | .setMax n :: ops => 0 < n ∧ PosMax ops

theorem run_returns (key : A → K) (f : A → Except E V) (hk : ∀ a b, key a = key b → f a = f b) :
    ∀ (ops : List (Op A)) (c : Cache K V), Inv key f c → 0 < c.maxsize → PosMax ops →
    ∀ p ∈ (run key f c ops).2, p.2 = direct f p.1 := by
  intro ops
  induction ops with
  | nil => intro c _ _ _ p hp; simp [run] at hp
  | cons o ops ih =>
    intro c hI hm hp p hpm
    cases o with
    | setMax n => exact ih _ (inv_setMax hI n) hp.1 hp.2 p hpm
    | call a =>
      simp only [run, List.mem_cons] at hpm
      rcases hpm with rfl | hpm
      · simp only [call]
        split
        · rename_i v hv
          obtain ⟨b, hb, hfb⟩ := hI.sound _ _ (lookup_mem hv)
          simp [direct, hk a b hb.symm, hfb]
        · rw [evict_spec]
          have : c.maxsize ≠ 0 := by omega
          simp only [this, if_false, if_true]
          cases hfa : f a <;> simp [direct, hfa]
      · exact ih _ (inv_call hI a) (by rw [call_maxsize]; exact hm) hp p hpm

/-- **C02 (value).** If the key separates arguments on which the function
differs, then in every history every call of the memoised function has the
outcome of the undecorated function – whatever was cached, evicted or resized
before. -/
theorem memo_returns_func (key : A → K) (f : A → Except E V)
    (hk : ∀ a b, key a = key b → f a = f b) (m : Nat) (hm : 0 < m) (ops : List (Op A))
    (hops : PosMax ops) :
    ∀ p ∈ (run key f (init m : Cache K V) ops).2, p.2 = direct f p.1 :=
  run_returns key f hk ops _ (inv_init key f m) hm hops

/-- **C02 (bound).** In every history the number of entries never exceeds the
current `maxsize`, and no key is stored twice. -/
theorem memo_size_bound (key : A → K) (f : A → Except E V) (m : Nat) (ops : List (Op A)) :
    let c := (run key f (init m : Cache K V) ops).1
    c.entries.length ≤ c.maxsize ∧ (c.entries.map Prod.fst).Nodup :=
  let h := inv_run ops (inv_init key f m)
  ⟨h.size, h.nodup⟩

theorem run_counts (key : A → K) (f : A → Except E V) : ∀ (ops : List (Op A)) (c : Cache K V),
    let r := run key f c ops
    r.1.hits + r.1.misses = c.hits + c.misses +
      (r.2.filter (fun p => match p.2 with | .val _ => true | _ => false)).length := by
  intro ops
  induction ops with
  | nil => intro c; simp [run]
  | cons o ops ih =>
    intro c
    cases o with
    | setMax n => simpa [run, setMaxsize] using ih (setMaxsize c n)
    | call a =>
      simp only [run]
      have := ih (call key f c a).1
      simp only at this
      rw [this]
      unfold call
      split
      · simp only [List.filter_cons, if_true, List.length_cons]; omega
      · rw [evict_spec]
        by_cases hm : c.maxsize = 0
        · simp [hm]
        · simp only [hm, if_false, if_true]
          cases hfa : f a <;> simp <;> omega

/-- **C02 (counters).** `hits + misses` is the number of calls that returned a value. -/
theorem memo_counts (key : A → K) (f : A → Except E V) (m : Nat) (ops : List (Op A)) :
    let r := run key f (init m : Cache K V) ops
    r.1.hits + r.1.misses =
      (r.2.filter (fun p => match p.2 with | .val _ => true | _ => false)).length := by
  simpa [init] using run_counts key f ops (init m)

/-- Specification of recency: the distinct keys of a history given most recent
first, most recently used first. -/
def recent : List K → List K
  | [] => []
  | k :: older => k :: (recent older).filter (fun x => decide (x ≠ k))

theorem recent_nodup : ∀ l : List K, (recent l).Nodup := by
  intro l
  induction l with
  | nil => simp [recent]
  | cons k l ih =>
    rw [recent, List.nodup_cons]
    exact ⟨by simp, ih.sublist List.filter_sublist⟩

theorem run_lru (key : A → K) (g : A → V) (m : Nat) (hm : 0 < m) : ∀ (as : List A) (c : Cache K V) (hist : List K),
    c.maxsize = m → (c.entries.map Prod.fst).reverse = (recent hist).take m →
    let c' := (run key (fun a => (.ok (g a) : Except E V)) c (as.map Op.call)).1
    (c'.entries.map Prod.fst).reverse = (recent ((as.map key).reverse ++ hist)).take m := by
  intro as
  induction as with
  | nil => intro c hist _ h; simpa [run] using h
  | cons a as ih =>
    intro c hist hc h
    simp only [List.map_cons, run, List.reverse_cons, List.append_assoc, List.singleton_append]
    apply ih _ (key a :: hist) (by rw [call_maxsize]; exact hc)
    obtain ⟨n, rfl⟩ : ∃ n, m = n + 1 := ⟨m - 1, by omega⟩
    rw [recent, List.take_succ_cons]
    unfold call
    split
    · rename_i v hv
      have hin : key a ∈ c.entries.map Prod.fst := mem_lookup.1 (by simp [hv])
      have hin' : key a ∈ (recent hist).take (n+1) := by rw [← h]; simpa using hin
      simp only [moveToEnd, List.map_append, List.map_cons, List.map_nil, List.reverse_append,
        List.reverse_cons, List.reverse_nil, List.nil_append, List.singleton_append]
      rw [take_filter_mem _ _ (recent_nodup hist) hin', ← h, map_fst_filter, List.filter_reverse]
    · rename_i hv
      have hin : key a ∉ c.entries.map Prod.fst := fun hh => mem_lookup.2 hh hv
      have hin' : key a ∉ (recent hist).take (n+1) := by rw [← h]; simpa using hin
      rw [evict_spec]
      simp only [hc, Nat.succ_ne_zero, if_false, if_true, Nat.add_sub_cancel, List.map_append,
        List.map_cons, List.map_nil, List.reverse_append, List.reverse_cons, List.reverse_nil,
        List.nil_append, List.singleton_append]
      rw [take_filter_not_mem _ _ hin', List.map_drop, List.reverse_drop, h, List.take_take]
      congr 1
      have hl : c.entries.length = min (n+1) (recent hist).length := by
        have := congrArg List.length h; simpa using this
      rw [List.length_map, hl]
      by_cases hq : (recent hist).length ≤ n
      · rw [List.take_of_length_le (i := n) hq, List.take_of_length_le]; omega
      · congr 1; omega

/-- **C02 (LRU).** With a total function and a fixed `maxsize = m ≥ 1`, after any
history of calls the cache holds exactly the `m` most recently used distinct
keys, in order of use – so what is evicted is always the least recently used. -/
theorem memo_lru (key : A → K) (g : A → V) (m : Nat) (hm : 0 < m) (as : List A) :
    let c := (run key (fun a => (.ok (g a) : Except E V)) (init m : Cache K V) (as.map Op.call)).1
    (c.entries.map Prod.fst).reverse = (recent (as.map key).reverse).take m := by
  have := run_lru (E := E) key g m hm as (init m) [] rfl (by simp [init, recent])
  simpa using this

/-- Specification of the keys held, most recently used first, after one operation on a
cache of size `m`: a call that returns moves its key to the front, a call that raises for a
key that is not held leaves room for one more entry, resizing keeps the most recent keys. -/
def keep (key : A → K) (f : A → Except E V) : List K × Nat → Op A → List K × Nat
  | (r, m), .call a =>
    if key a ∈ r then (key a :: r.filter (fun x => decide (x ≠ key a)), m)
    else match f a with
      | .ok _ => ((key a :: r).take m, m)
      | .error _ => (r.take (m - 1), m)
  | (r, _), .setMax n => (r.take n, n)

theorem run_keep (key : A → K) (f : A → Except E V) : ∀ (ops : List (Op A)) (c : Cache K V),
    let c' := (run key f c ops).1
    ((c'.entries.map Prod.fst).reverse, c'.maxsize) =
      ops.foldl (keep key f) ((c.entries.map Prod.fst).reverse, c.maxsize) := by
  intro ops
  induction ops with
  | nil => intro c; rfl
  | cons o ops ih =>
    intro c
    cases o with
    | setMax n =>
      simp only [run, List.foldl_cons]
      rw [ih]
      congr 1
      simp only [setMaxsize, shrink_spec, keep]
      rw [List.map_drop, List.reverse_drop, List.length_map]
      congr 1
      by_cases h : c.entries.length ≤ n
      · rw [List.take_of_length_le (by simp; omega), List.take_of_length_le (by simp; omega)]
      · congr 1; omega
    | call a =>
      simp only [run, List.foldl_cons]
      rw [ih]
      congr 1
      unfold call
      simp only [keep, List.mem_reverse]
      cases hv : lookup (key a) c.entries with
      | some v =>
        have hin : key a ∈ c.entries.map Prod.fst := mem_lookup.1 (by simp [hv])
        rw [if_pos hin]
        simp only [moveToEnd, List.map_append, List.map_cons, List.map_nil, List.reverse_append,
          List.reverse_cons, List.reverse_nil, List.nil_append, List.singleton_append]
        rw [map_fst_filter, List.filter_reverse]
      | none =>
        have hin : key a ∉ c.entries.map Prod.fst := fun hh => mem_lookup.2 hh hv
        rw [if_neg hin]
        simp only [evict_spec]
        by_cases hm : c.maxsize = 0
        · simp only [hm, if_true]
          cases f a <;> simp
        · have hd : ((c.entries.drop (c.entries.length - (c.maxsize - 1))).map Prod.fst).reverse =
              (c.entries.map Prod.fst).reverse.take (c.maxsize - 1) := by
            rw [List.map_drop, List.reverse_drop, List.length_map]
            by_cases h : c.entries.length ≤ c.maxsize - 1
            · rw [List.take_of_length_le (by simp; omega), List.take_of_length_le (by simp; omega)]
            · congr 1; omega
          simp only [hm, if_false, if_true]
          cases f a with
          | ok v =>
            simp only [List.map_append, List.map_cons, List.map_nil, List.reverse_append, List.reverse_cons,
              List.reverse_nil, List.nil_append, List.singleton_append, hd]
            obtain ⟨n, hn⟩ : ∃ n, c.maxsize = n + 1 := ⟨c.maxsize - 1, by omega⟩
            rw [hn, List.take_succ_cons, Nat.add_sub_cancel]
          | error e => simp only [hd]

/-- **C02 (LRU, all histories).** After any history of calls - returning or raising - and
resizes, the cache holds exactly the keys of the specification, in order of use. -/
theorem memo_lru_histories (key : A → K) (f : A → Except E V) (m : Nat) (ops : List (Op A)) :
    let c := (run key f (init m : Cache K V) ops).1
    ((c.entries.map Prod.fst).reverse, c.maxsize) = ops.foldl (keep key f) ([], m) := by
  have := run_keep key f ops (init m : Cache K V)
  simpa [init] using this

/-- **C02 (cost of a failure).** A call that raises evicts the least recently used entry of a
full cache although nothing is stored in its place. -/
theorem memo_failure_evicts (key : A → K) (f : A → Except E V) (c : Cache K V) (a : A) (e : E)
    (hf : f a = .error e) (hk : key a ∉ c.entries.map Prod.fst) (hfull : c.entries.length = c.maxsize)
    (hm : 0 < c.maxsize) : (call key f c a).1.entries = c.entries.tail := by
  unfold call
  cases hv : lookup (key a) c.entries with
  | some v => exact absurd (mem_lookup.1 (by simp [hv])) hk
  | none =>
    simp only [evict_spec, if_neg (Nat.pos_iff_ne_zero.1 hm), if_true, hf]
    rw [hfull, show c.maxsize - (c.maxsize - 1) = 1 by omega, List.drop_one]

/-- **C02 (disagreement).** With `maxsize = 0` no call ever succeeds: each raises
`KeyError`, although the wrapped function returns normally. -/
theorem memo_maxsize_zero_always_raises (key : A → K) (g : A → V) (as : List A) :
    ∀ p ∈ (run key (fun a => (.ok (g a) : Except E V)) (init 0 : Cache K V) (as.map Op.call)).2,
      p.2 = .keyError := by
  have gen : ∀ (as : List A) (c : Cache K V), c.entries = [] → c.maxsize = 0 →
      ∀ p ∈ (run key (fun a => (.ok (g a) : Except E V)) c (as.map Op.call)).2, p.2 = .keyError := by
    intro as
    induction as with
    | nil => intro c _ _ p hp; simp [run] at hp
    | cons a as ih =>
      intro c h1 h2 p hp
      have hcall : call key (fun a => (.ok (g a) : Except E V)) c a = (c, .keyError) := by
        unfold call
        rw [h1, evict_spec]
        simp [lookup, h2]
        cases c; simp at *; exact ⟨h1, h2.symm⟩
      simp only [List.map_cons, run, hcall, List.mem_cons] at hp
      rcases hp with rfl | hp
      · rfl
      · exact ih c h1 h2 p hp
  exact gen as _ rfl rfl

/-! ## The key -/

/-- **C02 (disagreement: dtype).** Two array arguments with the same shape and
bytes but different dtype have the same key, so a memoised function that
depends on the dtype returns the first answer for the second argument: the
second call's outcome is not that of the undecorated function. -/
theorem memo_key_ignores_dtype (d₁ d₂ : String) (shape : List Nat) (bytes : List UInt8) :
    keyOf ⟨[.arr d₁ shape bytes], []⟩ = keyOf ⟨[.arr d₂ shape bytes], []⟩ := by
  simp [keyOf, convert, convert.convertAll]

/-- A list and a tuple with the same items share a key. -/
theorem memo_key_list_tuple (xs : List PyVal) :
    keyOf ⟨[.list xs], []⟩ = keyOf ⟨[.tup xs], []⟩ := by
  simp [keyOf, convert, convert.convertAll]

/-- A keyword argument shares its key with a positional `(name, value)` pair. -/
theorem memo_key_kwarg (n : String) (v : PyVal) :
    keyOf ⟨[], [(n, v)]⟩ = keyOf ⟨[.tup [.str n, v]], []⟩ := by
  simp [keyOf, convert, convert.convertAll]

/-- **C02 (disagreement).** A concrete history in which the memoised function
returns a wrong value: for each decidable-equality version of the real key and
`f = dtype of the first argument`, the second call gets the first's dtype. -/
theorem memo_wrong_value [DecidableEq Key] :
    ∃ (f : Args → Except Unit String) (a b : Args), a ≠ b ∧
      (run keyOf f (init 2) [.call a, .call b]).2 = [(a, .val "int64"), (b, .val "int64")] ∧
      direct f b = .val "float64" := by
  let f : Args → Except Unit String := fun a =>
    match a.pos with
    | [.arr d _ _] => .ok d
    | _ => .ok ""
  refine ⟨f, ⟨[.arr "int64" [1] [0]], []⟩, ⟨[.arr "float64" [1] [0]], []⟩, by simp, ?_, rfl⟩
  have hk := memo_key_ignores_dtype "int64" "float64" [1] [0]
  have hk' : ∀ k : Key, keyOf ⟨[.arr "int64" [1] [0]], []⟩ = k → keyOf ⟨[.arr "float64" [1] [0]], []⟩ = k →
      (run keyOf f (init 2) [.call ⟨[.arr "int64" [1] [0]], []⟩, .call ⟨[.arr "float64" [1] [0]], []⟩]).2 =
      [(⟨[.arr "int64" [1] [0]], []⟩, .val "int64"), (⟨[.arr "float64" [1] [0]], []⟩, .val "int64")] := by
    intro k h1 h2
    simp [run, call, init, lookup, evict, h1, h2, f]
  exact hk' _ rfl hk.symm

/-- Arguments for which the key is faithful: numbers, strings, arrays of one
fixed dtype, and tuples of these whose first item is not a string. -/
inductive Plain (d : String) : PyVal → Prop
  | int (n : Int) : Plain d (.int n)
  | str (s : String) : Plain d (.str s)
  | arr (shape : List Nat) (bytes : List UInt8) : Plain d (.arr d shape bytes)
  | nil : Plain d (.tup [])
  | cons (x : PyVal) (xs : List PyVal) : (∀ s, x ≠ .str s) → Plain d x → (∀ y ∈ xs, Plain d y) →
      Plain d (.tup (x :: xs))

mutual
theorem convert_inj (d : String) : ∀ x y, Plain d x → Plain d y → convert x = convert y → x = y
  | .int _, y, _, hy, h => by
    cases hy <;> simp_all [convert]
  | .str _, y, _, hy, h => by
    cases hy <;> simp_all [convert]
  | .arr _ sh b, y, hx, hy, h => by
    cases hx
    cases hy with
    | arr sh' b' =>
      simp only [convert, Key.tup.injEq, List.cons.injEq, Key.digest.injEq, true_and, and_true] at h
      have : sh = sh' := by
        have hinj : Function.Injective (fun n : Nat => Key.int (Int.ofNat n)) := by
          intro a b hab; simp at hab; omega
        exact List.map_inj_right (fun a b hab => hinj hab) |>.1 h.1
      rw [this, h.2]
    | nil => simp [convert, convert.convertAll] at h
    | cons z zs hz _ _ =>
      simp only [convert, convert.convertAll, Key.tup.injEq, List.cons.injEq] at h
      cases z <;> simp_all [convert]
    | _ => simp [convert] at h
  | .list _, _, hx, _, _ => nomatch hx
  | .tup xs, y, hx, hy, h => by
    cases hy with
    | arr sh' b' =>
      cases hx with
      | nil => simp [convert, convert.convertAll] at h
      | cons z zs hz _ _ =>
        simp only [convert, convert.convertAll, Key.tup.injEq, List.cons.injEq] at h
        cases z <;> simp_all [convert]
    | int _ => simp [convert] at h
    | str _ => simp [convert] at h
    | nil =>
      simp only [convert, Key.tup.injEq] at h
      rw [convertAll_inj d xs [] (by cases hx <;> simp_all) (by simp) h]
    | cons z zs _ hz hzs =>
      simp only [convert, Key.tup.injEq] at h
      rw [convertAll_inj d xs (z :: zs) (by cases hx <;> simp_all) (by simpa using ⟨hz, hzs⟩) h]
theorem convertAll_inj (d : String) : ∀ xs ys, (∀ x ∈ xs, Plain d x) → (∀ y ∈ ys, Plain d y) →
    convert.convertAll xs = convert.convertAll ys → xs = ys
  | [], ys, _, _, h => by cases ys <;> simp_all [convert.convertAll]
  | x :: xs, ys, hx, hy, h => by
    cases ys with
    | nil => simp [convert.convertAll] at h
    | cons y ys =>
      simp only [convert.convertAll, List.cons.injEq] at h
      rw [convert_inj d x y (hx x (by simp)) (hy y (by simp)) h.1,
        convertAll_inj d xs ys (fun z hz => hx z (by simp [hz])) (fun z hz => hy z (by simp [hz])) h.2]
end

/-- **C02 (key, partial).** Calls with positional arguments only, all plain and
with arrays of one dtype, have equal keys only if the arguments are equal. What
is missing for the full statement is false, see the three collisions above. -/
theorem memo_key_faithful_partial (d : String) (a b : Args)
    (ha : a.kw = [] ∧ ∀ x ∈ a.pos, Plain d x) (hb : b.kw = [] ∧ ∀ x ∈ b.pos, Plain d x)
    (h : keyOf a = keyOf b) : a = b := by
  obtain ⟨ap, ak⟩ := a
  obtain ⟨bp, bk⟩ := b
  obtain ⟨rfl, ha⟩ := ha
  obtain ⟨rfl, hb⟩ := hb
  simp only [keyOf, List.map_nil, List.append_nil, Key.tup.injEq] at h
  rw [convertAll_inj d ap bp ha hb h]

/-! Non-vacuity -/
example : (run (E := Unit) (fun n : Nat => n) (fun n => .ok (n*n)) (init 2)
    [.call 1, .call 2, .call 1, .call 3, .call 2]).1.entries = [(3, 9), (2, 4)] := by decide
example : PosMax [Op.call 1, Op.setMax 3, Op.call 2] := by simp [PosMax]
example : Plain "float64" (.tup [.arr "float64" [2] [1,2], .int 3]) :=
  .cons _ _ (by simp) (.arr _ _) (by intro y hy; simp at hy; subst hy; exact .int 3)
example : recent [3, 1, 2, 1] = [3, 1, 2] := by decide

end Hexrd.Memo
