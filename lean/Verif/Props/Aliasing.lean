import Verif.Spec.Aliasing
import Verif.Props.Session

/-!
# C81: identities and contents of the arrays returned by `Scenario.atm`
-/

noncomputable section

open Classical

namespace PyBSM

open Spec

theorem after_snoc (env : Env) (w : Arrays) (ops : List ArrayOp) (op : ArrayOp) :
    w.after env (ops ++ [op]) = ((w.after env ops).step env op).1 := by
  unfold Arrays.after
  rw [List.foldl_append]
  rfl

theorem after_append (env : Env) (w : Arrays) (as bs : List ArrayOp) :
    w.after env (as ++ bs) = (w.after env as).after env bs := by
  unfold Arrays.after
  rw [List.foldl_append]

theorem dbLoad_fresh (files : Files) (sc : Scenario) :
    dbLoad files ⟨sc.interp, sc.altitude, sc.groundRange, sc.ihaze⟩ = loadFresh files sc.interp sc.key := by
  unfold dbLoad loadFresh Scenario.key
  cases sc.interp <;> rfl

theorem read_cases (files : Files) (w : Arrays) (j : ℕ) :
    (∃ a, w.cache j = some a ∧ w.read files j = (w, .ok a))
    ∨ (∃ e, w.cache j = none ∧ loadFresh files (w.params j).interp (w.params j).key = .error e
        ∧ w.read files j = (w, .error e))
    ∨ (∃ x, w.cache j = none ∧ loadFresh files (w.params j).interp (w.params j).key = .ok x
        ∧ w.read files j = ({ w with heap := w.heap ++ [x], cache := Function.update w.cache j (some w.heap.length) },
            .ok w.heap.length)) := by
  unfold Arrays.read
  cases hc : w.cache j with
  | some a => exact Or.inl ⟨a, rfl, rfl⟩
  | none =>
    right
    rw [← dbLoad_fresh]
    cases hd : dbLoad files ⟨(w.params j).interp, (w.params j).altitude, (w.params j).groundRange, (w.params j).ihaze⟩ with
    | error e => exact Or.inl ⟨e, rfl, rfl, by simp only [hd]⟩
    | ok x => exact Or.inr ⟨x, rfl, rfl, by simp only [hd]⟩

/-- What a step can do: keep everything but contents of arrays, drop one reference, or create an array. -/
theorem step_cases (env : Env) (w : Arrays) (op : ArrayOp) :
    ((w.step env op).1.cache = w.cache ∧ (w.step env op).1.heap.length = w.heap.length)
    ∨ (∃ j, (w.step env op).1.cache = Function.update w.cache j none ∧ (w.step env op).1.heap.length = w.heap.length)
    ∨ (∃ j, w.cache j = none ∧ (w.step env op).1.cache = Function.update w.cache j (some w.heap.length)
        ∧ (w.step env op).1.heap.length = w.heap.length + 1) := by
  have hread : ∀ j, ((w.read env.files j).1.cache = w.cache ∧ (w.read env.files j).1.heap.length = w.heap.length)
      ∨ (∃ k, w.cache k = none ∧ (w.read env.files j).1.cache = Function.update w.cache k (some w.heap.length)
        ∧ (w.read env.files j).1.heap.length = w.heap.length + 1) := by
    intro j
    rcases read_cases env.files w j with ⟨a, -, e⟩ | ⟨x, -, -, e⟩ | ⟨x, hc, -, e⟩ <;> rw [e]
    · exact Or.inl ⟨rfl, rfl⟩
    · exact Or.inl ⟨rfl, rfl⟩
    · exact Or.inr ⟨j, hc, rfl, by simp⟩
  cases op with
  | scenario j op =>
    cases op with
    | readAtm => exact (hread j).imp id Or.inr
    | setIhaze v => exact Or.inr (Or.inl ⟨j, rfl, rfl⟩)
    | setAltitude v => exact Or.inr (Or.inl ⟨j, rfl, rfl⟩)
    | setGroundRange v => exact Or.inr (Or.inl ⟨j, rfl, rfl⟩)
    | _ => exact Or.inl ⟨rfl, rfl⟩
  | write a g => exact Or.inl ⟨rfl, by simp [Arrays.step]⟩
  | contents a => exact Or.inl ⟨rfl, rfl⟩
  | simulate usable rng r s j => exact (hread j).imp id Or.inr

theorem length_le (env : Env) (w : Arrays) (op : ArrayOp) : w.heap.length ≤ (w.step env op).1.heap.length := by
  rcases step_cases env w op with ⟨-, h⟩ | ⟨j, -, h⟩ | ⟨j, -, -, h⟩ <;> omega

/-- No two scenarios refer to the same array, and all references are to existing arrays. -/
def Separate (w : Arrays) : Prop :=
  (∀ i j a, w.cache i = some a → w.cache j = some a → i = j) ∧ ∀ j a, w.cache j = some a → a < w.heap.length

theorem separate_step {env : Env} {w : Arrays} (h : Separate w) (op : ArrayOp) : Separate (w.step env op).1 := by
  obtain ⟨h1, h2⟩ := h
  rcases step_cases env w op with ⟨e, l⟩ | ⟨j, e, l⟩ | ⟨j, hj, e, l⟩
  · exact ⟨by rw [e]; exact h1, by rw [e, l]; exact h2⟩
  · have key : ∀ i a, Function.update w.cache j none i = some a → w.cache i = some a := by
      intro i a hi
      by_cases hij : i = j
      · subst hij
        rw [Function.update_self] at hi
        cases hi
      · rwa [Function.update_of_ne hij] at hi
    exact ⟨by rw [e]; exact fun i k a hi hk => h1 i k a (key i a hi) (key k a hk),
      by rw [e, l]; exact fun i a hi => h2 i a (key i a hi)⟩
  · have key : ∀ i a, Function.update w.cache j (some w.heap.length) i = some a →
        (i = j ∧ a = w.heap.length) ∨ (i ≠ j ∧ w.cache i = some a) := by
      intro i a hi
      by_cases hij : i = j
      · subst hij
        rw [Function.update_self] at hi
        exact Or.inl ⟨rfl, (Option.some.inj hi).symm⟩
      · rw [Function.update_of_ne hij] at hi
        exact Or.inr ⟨hij, hi⟩
    refine ⟨?_, ?_⟩
    · rw [e]
      intro i k a hi hk
      rcases key i a hi with ⟨e1, e2⟩ | ⟨-, hi'⟩ <;> rcases key k a hk with ⟨e3, e4⟩ | ⟨-, hk'⟩
      · rw [e1, e3]
      · exact absurd (h2 k a hk') (by omega)
      · exact absurd (h2 i a hi') (by omega)
      · exact h1 i k a hi' hk'
    · rw [e, l]
      intro i a hi
      rcases key i a hi with ⟨-, rfl⟩ | ⟨-, hi⟩
      · omega
      · have := h2 i a hi
        omega

theorem arrays_invariant {env : Env} {P : Arrays → Prop} (hs : ∀ w op, P w → P (w.step env op).1) :
    ∀ (ops : List ArrayOp) (w : Arrays), P w → P (w.after env ops) := by
  intro ops
  induction ops with
  | nil => exact fun w h => h
  | cons op ops ih => exact fun w h => ih _ (hs w op h)

theorem separate_after (env : Env) (params : ℕ → Scenario) (ops : List ArrayOp) :
    Separate ((Arrays.start params).after env ops) :=
  arrays_invariant (P := Separate) (fun w op h => separate_step h op) ops _
    ⟨fun i j a h => (by cases h), fun j a h => (by cases h)⟩

/-- After a read that returned `a`, `_atm` refers to `a`. -/
theorem read_cache {files : Files} {w : Arrays} {j a : ℕ} (h : (w.read files j).2 = .ok a) :
    (w.read files j).1.cache j = some a := by
  rcases read_cases files w j with ⟨b, hc, e⟩ | ⟨x, -, -, e⟩ | ⟨x, hc, -, e⟩ <;> rw [e] at h ⊢
  · rw [Except.ok.injEq] at h
    rw [← h]
    exact hc
  · cases h
  · rw [Except.ok.injEq] at h
    simp [h]

theorem returns_cache {env : Env} {params : ℕ → Scenario} {ops : List ArrayOp} {j a : ℕ} (h : Returns env params ops j a) :
    ((Arrays.start params).after env (ops ++ [.scenario j .readAtm])).cache j = some a := by
  rw [after_snoc]
  unfold Returns at h
  simp only [Arrays.step, ArrayOut.array.injEq] at h ⊢
  exact read_cache h

/-- Array `a` belongs to nobody but scenario `i`. -/
theorem owned_after {env : Env} {i a : ℕ} (ops : List ArrayOp) (w : Arrays) (h : a < w.heap.length ∧ ∀ j, j ≠ i → w.cache j ≠ some a) :
    a < (w.after env ops).heap.length ∧ ∀ j, j ≠ i → (w.after env ops).cache j ≠ some a := by
  refine arrays_invariant (P := fun w => a < w.heap.length ∧ ∀ j, j ≠ i → w.cache j ≠ some a) ?_ ops w h
  rintro w op ⟨h1, h2⟩
  refine ⟨h1.trans_le (length_le env w op), fun j hj => ?_⟩
  rcases step_cases env w op with ⟨e, -⟩ | ⟨k, e, -⟩ | ⟨k, -, e, -⟩ <;> rw [e]
  · exact h2 j hj
  · by_cases hjk : j = k
    · subst hjk
      simp
    · rw [Function.update_of_ne hjk]
      exact h2 j hj
  · by_cases hjk : j = k
    · subst hjk
      rw [Function.update_self]
      intro he
      rw [Option.some.injEq] at he
      omega
    · rw [Function.update_of_ne hjk]
      exact h2 j hj

/-- Array `a` belongs to nobody any more. -/
theorem retired_after {env : Env} {a : ℕ} (ops : List ArrayOp) (w : Arrays) (h : a < w.heap.length ∧ ∀ j, w.cache j ≠ some a) :
    ∀ j, (w.after env ops).cache j ≠ some a := by
  intro j
  have h1 := (owned_after (env := env) (i := j) (a := a) ops w ⟨h.1, fun k _ => h.2 k⟩)
  have h2 := (owned_after (env := env) (i := j + 1) (a := a) ops w ⟨h.1, fun k _ => h.2 k⟩)
  exact h2.2 j (by omega)

/-- **C81** (separate objects): reads of two different scenarios never return the same array, whatever happens in
between. -/
theorem C81_separate (env : Env) (params : ℕ → Scenario) (as bs : List ArrayOp) {i j a b : ℕ} (hij : i ≠ j)
    (ha : Returns env params as i a) (hb : Returns env params (as ++ .scenario i .readAtm :: bs) j b) : a ≠ b := by
  have hc := returns_cache ha
  have hs := separate_after env params (as ++ [.scenario i .readAtm])
  have ho := owned_after (env := env) (i := i) (a := a) bs _
    ⟨hs.2 i a hc, fun k hk h => hk (hs.1 k i a h hc)⟩
  have hb' := returns_cache hb
  rintro rfl
  have := owned_after (env := env) [.scenario j .readAtm] _ ho
  rw [← after_append, ← after_append] at this
  refine this.2 j hij.symm ?_
  rw [← hb']
  simp

/-- **C81** (same array): until one of the three parameters of the scenario is assigned, every read returns the same
array. -/
theorem C81_kept (env : Env) (params : ℕ → Scenario) (as bs : List ArrayOp) {j a : ℕ} (ha : Returns env params as j a)
    (hbs : ∀ op ∈ bs, ¬ Reassigns j op) : Returns env params (as ++ .scenario j .readAtm :: bs) j a := by
  have key : ∀ (bs : List ArrayOp) (w : Arrays), (∀ op ∈ bs, ¬ Reassigns j op) → w.cache j = some a →
      (w.after env bs).cache j = some a := by
    intro bs
    induction bs with
    | nil => exact fun w _ h => h
    | cons op bs ih =>
      intro w hb h
      refine ih _ (fun o ho => hb o (by simp [ho])) ?_
      have hn := hb op (by simp)
      have hr : ∀ k, (w.read env.files k).1.cache j = some a := by
        intro k
        rcases read_cases env.files w k with ⟨b, hc, e⟩ | ⟨x, -, -, e⟩ | ⟨x, hc, -, e⟩ <;> rw [e]
        · exact h
        · exact h
        · have : j ≠ k := by
            rintro rfl
            rw [h] at hc
            cases hc
          dsimp only
          rw [Function.update_of_ne this]
          exact h
      cases op with
      | scenario k op =>
        cases op with
        | readAtm => exact hr k
        | setIhaze v =>
          have : j ≠ k := fun e => hn ⟨e.symm, trivial⟩
          simpa [Arrays.step, dropsCache, Function.update_of_ne this] using h
        | setAltitude v =>
          have : j ≠ k := fun e => hn ⟨e.symm, trivial⟩
          simpa [Arrays.step, dropsCache, Function.update_of_ne this] using h
        | setGroundRange v =>
          have : j ≠ k := fun e => hn ⟨e.symm, trivial⟩
          simpa [Arrays.step, dropsCache, Function.update_of_ne this] using h
        | _ => exact h
      | write b g => exact h
      | contents b => exact h
      | simulate usable rng r s k => exact hr k
  have h := key bs _ hbs (returns_cache ha)
  rw [← after_append] at h
  unfold Returns
  have e : as ++ .scenario j .readAtm :: bs = as ++ [.scenario j .readAtm] ++ bs := by simp
  rw [e]
  simp only [Arrays.step, Arrays.read, h]

/-- **C81** (new array): once one of the three parameters has been assigned, no read of any scenario ever returns an
array that this scenario had returned before. -/
theorem C81_renewed (env : Env) (params : ℕ → Scenario) (as bs cs : List ArrayOp) {op : ArrayOp} {j k a b : ℕ}
    (ha : Returns env params as j a) (hop : Reassigns j op)
    (hb : Returns env params (as ++ .scenario j .readAtm :: bs ++ op :: cs) k b) : a ≠ b := by
  have hc := returns_cache ha
  have hs := separate_after env params (as ++ [.scenario j .readAtm])
  have ho := owned_after (env := env) (i := j) (a := a) bs _
    ⟨hs.2 j a hc, fun k hk h => hk (hs.1 k j a h hc)⟩
  rw [← after_append] at ho
  obtain ⟨v, hv⟩ : ∃ v, (Arrays.start params).after env (as ++ [.scenario j .readAtm] ++ bs) = v := ⟨_, rfl⟩
  rw [hv] at ho
  have hret : a < (v.step env op).1.heap.length ∧ ∀ i, (v.step env op).1.cache i ≠ some a := by
    refine ⟨ho.1.trans_le (length_le env v op), fun i => ?_⟩
    cases op with
    | scenario l op =>
      obtain ⟨rfl, hp⟩ := hop
      have e : (v.step env (.scenario l op)).1.cache = Function.update v.cache l none := by
        cases op <;> first | rfl | exact absurd hp (by simp [IsParamWrite])
      rw [e]
      by_cases hil : i = l
      · subst hil
        simp
      · rw [Function.update_of_ne hil]
        exact ho.2 i hil
    | write => exact absurd hop (by simp [Reassigns])
    | contents => exact absurd hop (by simp [Reassigns])
    | simulate => exact absurd hop (by simp [Reassigns])
  have hb' := returns_cache hb
  rintro rfl
  refine retired_after (env := env) (cs ++ [.scenario k .readAtm]) _ hret k ?_
  rw [← hb', ← hv, ← after_snoc, ← after_append]
  simp

theorem writesTo_append (a : ℕ) (as bs : List ArrayOp) : writesTo a (as ++ bs) = writesTo a as ++ writesTo a bs := by
  induction as with
  | nil => rfl
  | cons op as ih =>
    cases op with
    | write b g =>
      simp only [List.cons_append, writesTo, ih]
      split_ifs <;> rfl
    | _ => exact ih

theorem paramsAfter_append (j : ℕ) (as bs : List ArrayOp) : ∀ sc, paramsAfter j sc (as ++ bs) = paramsAfter j (paramsAfter j sc as) bs := by
  induction as with
  | nil => exact fun sc => rfl
  | cons op as ih =>
    intro sc
    cases op with
    | scenario k op =>
      simp only [List.cons_append, paramsAfter]
      split_ifs <;> exact ih _
    | _ => exact ih sc

theorem writesTo_nil {a : ℕ} {ops : List ArrayOp} (h : ∀ g, ArrayOp.write a g ∉ ops) : writesTo a ops = [] := by
  induction ops with
  | nil => rfl
  | cons op ops ih =>
    have h' := ih fun g hg => h g (by simp [hg])
    cases op with
    | write b g =>
      have : b ≠ a := by
        rintro rfl
        exact h g (by simp)
      simp only [writesTo, if_neg this, h']
    | _ => exact h'

/-- The history so far explains the state. -/
structure Explains (env : Env) (params : ℕ → Scenario) (ops : List ArrayOp) (w : Arrays) : Prop where
  attributes : ∀ j, SameScene (w.params j) (paramsAfter j (params j) ops) ∧ (w.params j).interp = (paramsAfter j (params j) ops).interp
  bounded : ∀ a g, ArrayOp.write a g ∈ ops → a < w.heap.length
  contents : ∀ j a, w.cache j = some a → ∃ x, loadFresh env.files (w.params j).interp (w.params j).key = .ok x
    ∧ w.heap[a]? = some (overwritten x (writesTo a ops))

theorem legal_snoc {env : Env} {params : ℕ → Scenario} {ops : List ArrayOp} {op : ArrayOp} (h : Legal env params (ops ++ [op])) :
    Legal env params ops ∧ ∀ a g, op = .write a g → a < ((Arrays.start params).after env ops).heap.length := by
  refine ⟨fun l r a g e => h l (r ++ [op]) a g (by rw [e]; simp), ?_⟩
  rintro a g rfl
  exact h ops [] a g rfl

theorem legal_read {env : Env} {params : ℕ → Scenario} {ops : List ArrayOp} (h : Legal env params ops) (j : ℕ) :
    Legal env params (ops ++ [.scenario j .readAtm]) := by
  intro l r a g e
  rcases List.eq_nil_or_concat r with rfl | ⟨r', o, rfl⟩
  · have := List.append_inj' e rfl
    simp at this
  · rw [List.concat_eq_append] at e
    have e' : ops ++ [.scenario j .readAtm] = (l ++ .write a g :: r') ++ [o] := by rw [e]; simp
    exact h l r' a g (List.append_inj' e' rfl).1

theorem step_same {files : Files} {a b : Scenario} (op : ScenOp) (h : SameScene a b ∧ a.interp = b.interp) (hr : op ≠ .readAtm) :
    SameScene (a.step files op).1 (assigned b op) ∧ (a.step files op).1.interp = (assigned b op).interp := by
  obtain ⟨⟨h1, h2, h3, h4, h5, h6, h7⟩, hi⟩ := h
  cases op with
  | readAtm => exact absurd rfl hr
  | setIhaze v => exact ⟨⟨h1, rfl, h3, h4, h5, h6, h7⟩, hi⟩
  | setAltitude v => exact ⟨⟨h1, h2, rfl, h4, h5, h6, h7⟩, hi⟩
  | setGroundRange v => exact ⟨⟨h1, h2, h3, rfl, h5, h6, h7⟩, hi⟩
  | setName v => exact ⟨⟨rfl, h2, h3, h4, h5, h6, h7⟩, hi⟩
  | setAircraftSpeed v => exact ⟨⟨h1, h2, h3, h4, rfl, h6, h7⟩, hi⟩
  | setTargetReflectance v => exact ⟨⟨h1, h2, h3, h4, h5, h6, h7⟩, hi⟩
  | setTargetTemperature v => exact ⟨⟨h1, h2, h3, h4, h5, h6, h7⟩, hi⟩
  | setBackgroundReflectance v => exact ⟨⟨h1, h2, h3, h4, h5, h6, h7⟩, hi⟩
  | setBackgroundTemperature v => exact ⟨⟨h1, h2, h3, h4, h5, h6, h7⟩, hi⟩
  | setHaWindSpeed v => exact ⟨⟨h1, h2, h3, h4, h5, rfl, h7⟩, hi⟩
  | setCn2At1m v => exact ⟨⟨h1, h2, h3, h4, h5, h6, rfl⟩, hi⟩

theorem explains_read {env : Env} {params : ℕ → Scenario} {ops : List ArrayOp} {w : Arrays} (h : Explains env params ops w)
    (k : ℕ) {op : ArrayOp} (hw : ∀ a, writesTo a [op] = []) (hp : ∀ j sc, paramsAfter j sc [op] = sc)
    (hn : ∀ a g, op ≠ .write a g) : Explains env params (ops ++ [op]) (w.read env.files k).1 := by
  obtain ⟨h1, h2, h3⟩ := h
  have h1' : ∀ j, SameScene (w.params j) (paramsAfter j (params j) (ops ++ [op]))
      ∧ (w.params j).interp = (paramsAfter j (params j) (ops ++ [op])).interp := by
    intro j
    rw [paramsAfter_append, hp]
    exact h1 j
  have h2' : ∀ a g, ArrayOp.write a g ∈ ops ++ [op] → a < w.heap.length := by
    intro a g hm
    rcases List.mem_append.mp hm with hm | hm
    · exact h2 a g hm
    · exact absurd (List.mem_singleton.mp hm).symm (hn a g)
  have h3' : ∀ j a, w.cache j = some a → ∃ x, loadFresh env.files (w.params j).interp (w.params j).key = .ok x
      ∧ w.heap[a]? = some (overwritten x (writesTo a (ops ++ [op]))) := by
    intro j a hc
    rw [writesTo_append, hw, List.append_nil]
    exact h3 j a hc
  rcases read_cases env.files w k with ⟨b, hc, e⟩ | ⟨x, -, -, e⟩ | ⟨atm, hc, hl, e⟩ <;> rw [e]
  · exact ⟨h1', h2', h3'⟩
  · exact ⟨h1', h2', h3'⟩
  · refine ⟨h1', fun a g hm => ?_, fun j a hj => ?_⟩
    · have := h2' a g hm
      simp only [List.length_append, List.length_singleton]
      omega
    · dsimp only at hj ⊢
      by_cases hjk : j = k
      · subst hjk
        rw [Function.update_self, Option.some.injEq] at hj
        subst hj
        refine ⟨atm, hl, ?_⟩
        rw [writesTo_nil fun g hg => absurd (h2' _ g hg) (lt_irrefl _)]
        simp [overwritten]
      · rw [Function.update_of_ne hjk] at hj
        obtain ⟨x, e1, e2⟩ := h3' j a hj
        refine ⟨x, e1, ?_⟩
        rw [← e2, List.getElem?_append_left]
        by_contra hlt
        rw [List.getElem?_eq_none (not_lt.mp hlt)] at e2
        cases e2

theorem explains_after {env : Env} {params : ℕ → Scenario} (ops : List ArrayOp) (hl : Legal env params ops) :
    Explains env params ops ((Arrays.start params).after env ops) := by
  induction ops using List.reverseRecOn with
  | nil => exact ⟨fun j => ⟨SameScene.refl _, rfl⟩, fun a g h => (by cases h), fun j a h => (by cases h)⟩
  | append_singleton ops op ih =>
    obtain ⟨hl1, hl2⟩ := legal_snoc hl
    have h := ih hl1
    rw [after_snoc]
    obtain ⟨w, hw⟩ : ∃ w, (Arrays.start params).after env ops = w := ⟨_, rfl⟩
    rw [hw] at h hl2 ⊢
    cases op with
    | scenario k op =>
      by_cases hr : op = .readAtm
      · subst hr
        refine explains_read h k (fun a => rfl) (fun j sc => ?_) (fun a g => by simp)
        simp only [paramsAfter]
        split_ifs <;> rfl
      · obtain ⟨h1, h2, h3⟩ := h
        have hst : (w.step env (.scenario k op)).1 = { w with
            params := Function.update w.params k ((w.params k).step env.files op).1
            cache := if dropsCache op then Function.update w.cache k none else w.cache } := by
          cases op <;> first | rfl | exact absurd rfl hr
        rw [hst]
        refine ⟨fun j => ?_, fun a g hm => ?_, fun j a hj => ?_⟩
        · dsimp only
          rw [paramsAfter_append]
          by_cases hjk : j = k
          · subst hjk
            rw [Function.update_self]
            simp only [paramsAfter, if_true]
            exact step_same op (h1 j) hr
          · rw [Function.update_of_ne hjk]
            simp only [paramsAfter, if_neg (Ne.symm hjk)]
            exact h1 j
        · rcases List.mem_append.mp hm with hm | hm
          · exact h2 a g hm
          · simp at hm
        · have e : writesTo a (ops ++ [.scenario k op]) = writesTo a ops := by
            rw [writesTo_append]
            simp [writesTo]
          rw [e]
          dsimp only at hj ⊢
          by_cases hjk : j = k
          · subst hjk
            rw [Function.update_self]
            cases op with
            | readAtm => exact absurd rfl hr
            | setIhaze v => simp [dropsCache] at hj
            | setAltitude v => simp [dropsCache] at hj
            | setGroundRange v => simp [dropsCache] at hj
            | _ => exact h3 j a hj
          · rw [Function.update_of_ne hjk]
            refine h3 j a ?_
            split_ifs at hj
            · rwa [Function.update_of_ne hjk] at hj
            · exact hj
    | write b g =>
      obtain ⟨h1, h2, h3⟩ := h
      refine ⟨fun j => ?_, fun a g' hm => ?_, fun j a hj => ?_⟩
      · rw [paramsAfter_append]
        exact h1 j
      · simp only [Arrays.step, List.length_modify]
        rcases List.mem_append.mp hm with hm | hm
        · exact h2 a g' hm
        · exact hl2 a g' (List.mem_singleton.mp hm).symm
      · obtain ⟨x, e1, e2⟩ := h3 j a hj
        refine ⟨x, e1, ?_⟩
        simp only [Arrays.step, List.getElem?_modify, e2, writesTo_append, writesTo]
        by_cases hba : b = a
        · simp [hba, overwritten]
        · simp [hba, overwritten]
    | contents b =>
      obtain ⟨h1, h2, h3⟩ := h
      refine ⟨fun j => ?_, fun a g' hm => ?_, fun j a hj => ?_⟩
      · rw [paramsAfter_append]
        exact h1 j
      · rcases List.mem_append.mp hm with hm | hm
        · exact h2 a g' hm
        · simp at hm
      · rw [writesTo_append, show writesTo a [.contents b] = [] from rfl, List.append_nil]
        exact h3 j a hj
    | simulate usable rng r s k =>
      exact explains_read h k (fun a => rfl) (fun j sc => rfl) (fun a g => by simp)

/-- **C81** (contents): the array a read returns holds what a fresh load gives for the present parameters, overwritten
by what the client itself has written into this very array, and nothing else. -/
theorem C81_contents (env : Env) (params : ℕ → Scenario) (ops : List ArrayOp) (hl : Legal env params ops) {j a : ℕ}
    (ha : Returns env params ops j a) :
    ∃ x, loadFresh env.files (paramsAfter j (params j) ops).interp (paramsAfter j (params j) ops).key = .ok x
      ∧ (((Arrays.start params).after env (ops ++ [.scenario j .readAtm])).step env (.contents a)).2
        = .contents (some (overwritten x (writesTo a ops))) := by
  have h := explains_after _ (legal_read hl j)
  obtain ⟨x, e1, e2⟩ := h.contents j a (returns_cache ha)
  have hs := h.attributes j
  have e : paramsAfter j (params j) (ops ++ [.scenario j .readAtm]) = paramsAfter j (params j) ops := by
    rw [paramsAfter_append]
    simp [paramsAfter, assigned]
  rw [e] at hs
  refine ⟨x, ?_, ?_⟩
  · rw [← e1, hs.2]
    unfold Scenario.key
    rw [hs.1.altitude, hs.1.groundRange, hs.1.ihaze]
  · simp only [Arrays.step]
    rw [e2, writesTo_append]
    simp [writesTo]

/-- **C81** (library): between two looks at an array only the client's own writes change its contents. -/
theorem C81_library (env : Env) (params : ℕ → Scenario) (as bs : List ArrayOp) {a : ℕ} {x : Atm}
    (hx : (((Arrays.start params).after env as).step env (.contents a)).2 = .contents (some x)) :
    (((Arrays.start params).after env (as ++ bs)).step env (.contents a)).2
      = .contents (some (overwritten x (writesTo a bs))) := by
  simp only [Arrays.step, ArrayOut.contents.injEq] at hx ⊢
  rw [after_append]
  revert hx
  generalize (Arrays.start params).after env as = w
  induction bs generalizing w x with
  | nil => exact fun hx => hx
  | cons op bs ih =>
    intro hx
    show ((w.step env op).1.after env bs).heap[a]? = _
    have hr : ∀ k, (w.read env.files k).1.heap[a]? = some x := by
      intro k
      rcases read_cases env.files w k with ⟨b, hc, e⟩ | ⟨y, -, -, e⟩ | ⟨y, hc, -, e⟩ <;> rw [e]
      · exact hx
      · exact hx
      · dsimp only
        rw [List.getElem?_append_left]
        · exact hx
        · by_contra hlt
          rw [List.getElem?_eq_none (not_lt.mp hlt)] at hx
          cases hx
    cases op with
    | scenario k op =>
      refine ih (x := x) _ ?_
      cases op with
      | readAtm => exact hr k
      | _ => exact hx
    | write b g =>
      by_cases hba : b = a
      · subst hba
        have := ih (x := g x) (w.step env (.write b g)).1 (by simp [Arrays.step, hx])
        simpa [writesTo, overwritten] using this
      · have := ih (x := x) (w.step env (.write b g)).1 (by simp [Arrays.step, hx, hba])
        simpa [writesTo, overwritten, hba] using this
    | contents b => exact ih (x := x) _ hx
    | simulate usable rng r s k => exact ih (x := x) _ (hr k)

/-- **C81** (`simulate_image`): a simulation uses the contents of the array that a read would return: the atmosphere
for the present parameters, with what the client itself has written into this very array (so such a write, without an
assignment to a parameter afterwards, does change the simulated image). -/
theorem C81_simulate (env : Env) (params : ℕ → Scenario) (ops : List ArrayOp) (hl : Legal env params ops) {j a : ℕ}
    (ha : Returns env params ops j a) (usable : Bool) (rng : Rng) (r : RefImage) (s : Sensor) :
    ∃ x, loadFresh env.files (paramsAfter j (params j) ops).interp (paramsAfter j (params j) ops).key = .ok x
      ∧ (((Arrays.start params).after env ops).step env (.simulate usable rng r s j)).2
        = .images ((simulateImage env usable rng r s
            { paramsAfter j (params j) ops with atmCache := some (overwritten x (writesTo a ops)) }).map
              fun R => (R.trueImg, R.blurImg, R.noisyImg)) := by
  have h := explains_after _ hl
  obtain ⟨x, hx, -⟩ := C81_contents env params ops hl ha
  refine ⟨x, hx, ?_⟩
  obtain ⟨w, hw⟩ : ∃ w, (Arrays.start params).after env ops = w := ⟨_, rfl⟩
  unfold Returns at ha
  rw [hw] at h ha ⊢
  obtain ⟨hs1, hs2⟩ := h.attributes j
  have hk : (w.params j).key = (paramsAfter j (params j) ops).key := by
    unfold Scenario.key
    rw [hs1.altitude, hs1.groundRange, hs1.ihaze]
  show ArrayOut.images _ = ArrayOut.images _
  congr 1
  have hc2 : ∀ y : Atm, (Scenario.readAtm env.files { paramsAfter j (params j) ops with atmCache := some y }).1 = .ok y := fun y => rfl
  have key : ((w.view j).readAtm env.files).1 = .ok (overwritten x (writesTo a ops))
      ∧ SameScene ((w.view j).readAtm env.files).2.1 (paramsAfter j (params j) ops) := by
    simp only [Arrays.step, ArrayOut.array.injEq] at ha
    obtain ⟨g1, g2, g3, g4, g5, g6, g7⟩ := hs1
    rcases read_cases env.files w j with ⟨b, hc, e⟩ | ⟨y, -, -, e⟩ | ⟨y, hc, hy, e⟩ <;> rw [e] at ha
    · rw [Except.ok.injEq] at ha
      subst ha
      obtain ⟨y, e1, e2⟩ := h.contents j b hc
      rw [hs2, hk, hx, Except.ok.injEq] at e1
      subst e1
      simp only [Arrays.view, hc, Option.bind_some, e2, Scenario.readAtm]
      exact ⟨trivial, ⟨g1, g2, g3, g4, g5, g6, g7⟩⟩
    · cases ha
    · rw [Except.ok.injEq] at ha
      subst ha
      rw [writesTo_nil fun g hg => absurd (h.bounded _ g hg) (lt_irrefl _)]
      have e : dbLoad env.files ⟨(w.params j).interp, (w.params j).altitude, (w.params j).groundRange, (w.params j).ihaze⟩ = .ok x := by
        rw [dbLoad_fresh, hs2, hk, hx]
      simp only [Arrays.view, hc, Option.bind_none, Scenario.readAtm, e]
      exact ⟨rfl, ⟨g1, g2, g3, g4, g5, g6, g7⟩⟩
  refine simulate_images_eq env usable rng r s (key.1.trans (hc2 _).symm) (key.2.trans ?_)
  exact ⟨rfl, rfl, rfl, rfl, rfl, rfl, rfl⟩

/-- **C81** (errors): a read raises what a fresh load for the present parameters raises, and then every simulation does. -/
theorem C81_error (env : Env) (params : ℕ → Scenario) (ops : List ArrayOp) (hl : Legal env params ops) {j : ℕ} {e : PyErr}
    (he : (((Arrays.start params).after env ops).step env (.scenario j .readAtm)).2 = .array (.error e)) :
    loadFresh env.files (paramsAfter j (params j) ops).interp (paramsAfter j (params j) ops).key = .error e
      ∧ ∀ usable rng r s, (((Arrays.start params).after env ops).step env (.simulate usable rng r s j)).2 = .images (.error e) := by
  have h := explains_after _ hl
  obtain ⟨w, hw⟩ : ∃ w, (Arrays.start params).after env ops = w := ⟨_, rfl⟩
  rw [hw] at h he ⊢
  obtain ⟨hs1, hs2⟩ := h.attributes j
  have hk : (w.params j).key = (paramsAfter j (params j) ops).key := by
    unfold Scenario.key
    rw [hs1.altitude, hs1.groundRange, hs1.ihaze]
  simp only [Arrays.step, ArrayOut.array.injEq] at he
  rcases read_cases env.files w j with ⟨b, -, e'⟩ | ⟨y, hc, hy, e'⟩ | ⟨y, -, -, e'⟩ <;> rw [e'] at he
  · cases he
  · rw [Except.error.injEq] at he
    subst he
    have e1 : dbLoad env.files ⟨(w.params j).interp, (w.params j).altitude, (w.params j).groundRange, (w.params j).ihaze⟩ = .error y := by
      rw [dbLoad_fresh, hy]
    refine ⟨by rw [← hs2, ← hk, ← dbLoad_fresh]; exact e1, fun usable rng r s => ?_⟩
    show ArrayOut.images _ = _
    congr 1
    have e2 : ((w.view j).readAtm env.files).1 = .error y := by
      simp only [Arrays.view, hc, Option.bind_none, Scenario.readAtm, e1]
    unfold simulateCall simulateImage
    dsimp only
    rw [e2]
    rfl
  · cases he

/-- The demonstration objects: a read returns array 0, a write blackens it, and the next read, without an assignment in
between, returns the blackened array; an assignment of the same altitude brings the database contents back, in a new
array. -/
example : let w : ArrayOp := .write 0 fun x => x.map fun _ _ => 0
    let read : ArrayOp := .scenario 3 .readAtm
    Returns demoEnv (fun _ => demoScenario) [] 3 0 ∧ Legal demoEnv (fun _ => demoScenario) [read, w]
    ∧ Returns demoEnv (fun _ => demoScenario) [read, w] 3 0
    ∧ Returns demoEnv (fun _ => demoScenario) [read, w, .scenario 3 (.setAltitude demoScenario.altitude)] 3 1
    ∧ Returns demoEnv (fun _ => demoScenario) [read, w] 5 1 := by
  intro w read
  have h0 : dbLoad demoEnv.files ⟨demoScenario.interp, demoScenario.altitude, demoScenario.groundRange, demoScenario.ihaze⟩
      = .ok (realAtm demoAtm) := demoAtm_load
  have hr : ∀ (v : Arrays) j, v.cache j = none → (v.params j).key = demoScenario.key → (v.params j).interp = demoScenario.interp →
      v.read demoEnv.files j = ({ v with heap := v.heap ++ [realAtm demoAtm], cache := Function.update v.cache j (some v.heap.length) }, .ok v.heap.length) := by
    intro v j h1 h2 h3
    unfold Arrays.read
    rw [dbLoad_fresh] at h0 ⊢
    rw [h1, h2, h3, h0]
  have e1 : (Arrays.start fun _ => demoScenario).after demoEnv [read]
      = ⟨[realAtm demoAtm], fun _ => demoScenario, Function.update (fun _ => none) 3 (some 0)⟩ := by
    show ((Arrays.start fun _ => demoScenario).read demoEnv.files 3).1 = _
    rw [hr _ _ rfl rfl rfl]
    rfl
  have e2 : (Arrays.start fun _ => demoScenario).after demoEnv [read, w]
      = ⟨[(realAtm demoAtm).map fun _ _ => 0], fun _ => demoScenario, Function.update (fun _ => none) 3 (some 0)⟩ := by
    have : [read, w] = [read] ++ [w] := rfl
    rw [this, after_snoc, e1]
    rfl
  refine ⟨?_, ?_, ?_, ?_, ?_⟩
  · show ArrayOut.array ((Arrays.start fun _ => demoScenario).read demoEnv.files 3).2 = _
    rw [hr _ _ rfl rfl rfl]
    rfl
  · intro l r a g e
    match l, e with
    | [], e => simp [read] at e
    | [x], e =>
      simp only [List.cons_append, List.nil_append, List.cons.injEq] at e
      obtain ⟨rfl, e, -⟩ := e
      rw [e1]
      simp only [w, ArrayOp.write.injEq] at e
      simp [← e.1]
    | x :: y :: l, e => simp at e
  · unfold Returns
    rw [e2]
    simp [Arrays.step, Arrays.read]
  · have : [read, w, .scenario 3 (.setAltitude demoScenario.altitude)] = [read, w] ++ [.scenario 3 (.setAltitude demoScenario.altitude)] := rfl
    unfold Returns
    rw [this, after_snoc, e2]
    show ArrayOut.array (Arrays.read demoEnv.files _ 3).2 = _
    rw [hr _ _ (by simp [Arrays.step, dropsCache]) (by simp [Arrays.step, Scenario.step, Scenario.setAltitude, Scenario.key])
      (by simp [Arrays.step, Scenario.step, Scenario.setAltitude])]
    rfl
  · unfold Returns
    rw [e2]
    show ArrayOut.array (Arrays.read demoEnv.files _ 5).2 = _
    rw [hr _ _ (by simp) rfl rfl]
    rfl

end PyBSM
