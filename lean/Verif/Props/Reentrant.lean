import Verif.Reentrant
import Verif.Props.Builds

/-!
# C98: every call of `Name::new` returns

True for ordinary strings and for all callers whose `as_ref` and `into` only make well-known names; false for callers
that make another name while the mutex is held, which stop every thread.
-/

namespace Pddl.Reentrant
open Pddl

variable {ι : Type} [DecidableEq ι] {search : Searcher}

theorem Sys.set_same (σ : Sys ι) (i : ι) (t : Thread) : σ.set i t i = t := by simp [Sys.set]
theorem Sys.set_other (σ : Sys ι) {i j : ι} (t : Thread) (h : j ≠ i) : σ.set i t j = σ.threads j := by
  simp [Sys.set, h]

/-- The thread is in the middle of a call, as far as the table and the call tell. -/
def Fits (st : Interner) (c : Call) : Phase → Prop
  | .idle => True
  | .borrowing left => ∃ x, c.borrowing = x ++ left
  | .converting k left => k ≤ st.table.length ∧ ∃ x, c.converting = x ++ left
  | .ready k => ∃ a, st.table[k]? = some a ∧ a.text = c.text

/-- What holds in all reachable states. -/
structure Inv (calls : ι → List Call) (σ : Sys ι) : Prop where
  holds : ∀ i, (σ.threads i).phase ≠ .idle → σ.lock = some i
  busy : ∀ i, σ.lock = some i → (σ.threads i).phase ≠ .idle
  call : ∀ i, (σ.threads i).phase ≠ .idle → ∃ c cs, (σ.threads i).todo = c :: cs ∧
    ¬ WellKnown c.text ∧ Fits σ.st c (σ.threads i).phase
  split : ∀ i, ((σ.threads i).done.map Prod.fst).reverse ++ (σ.threads i).todo = calls i
  done : ∀ i c x, (c, x) ∈ (σ.threads i).done → x.text = c.text

theorem Inv.init (calls : ι → List Call) : Inv calls (Sys.init calls) where
  holds i h := absurd rfl h
  busy i h := by cases h
  call i h := absurd rfl h
  split i := by simp [Sys.init]
  done i c x h := by simp [Sys.init] at h

/-- A step of thread `i` that changes neither the table nor the mutex, to a phase of the same call. -/
theorem Inv.inside {calls : ι → List Call} {σ : Sys ι} (h : Inv calls σ) {i c cs d} {ph ph' : Phase} {st' : Interner}
    (ht : σ.threads i = ⟨c :: cs, ph, d⟩) (hp : ph ≠ .idle) (hp' : ph' ≠ .idle) (hf : Fits st' c ph') :
    Inv calls ⟨st', σ.lock, σ.set i ⟨c :: cs, ph', d⟩⟩ := by
  have hpi : (σ.threads i).phase ≠ .idle := by rw [ht]; exact hp
  have hl := h.holds i hpi
  have hother : ∀ j, j ≠ i → (σ.threads j).phase = .idle := by
    intro j hj
    refine Classical.byContradiction fun hn => hj ?_
    have := h.holds j hn
    rw [hl] at this
    exact (Option.some.inj this).symm
  have hw : ¬ WellKnown c.text := by
    obtain ⟨c', cs', h1, h2, _⟩ := h.call i hpi
    rw [ht] at h1
    cases h1
    exact h2
  constructor
  · intro j hj
    by_cases e : j = i
    · subst e; exact hl
    · exact absurd (by show (σ.set i _ j).phase = _; rw [Sys.set_other σ _ e]; exact hother j e) hj
  · intro j hj
    have e : j = i := by
      have : σ.lock = some j := hj
      rw [hl] at this
      exact (Option.some.inj this).symm
    subst e
    show (σ.set j _ j).phase ≠ _
    rw [Sys.set_same]
    exact hp'
  · intro j hj
    by_cases e : j = i
    · subst e
      refine ⟨c, cs, ?_, hw, ?_⟩
      · show (σ.set j _ j).todo = _
        rw [Sys.set_same]
      · show Fits st' c (σ.set j _ j).phase
        rw [Sys.set_same]
        exact hf
    · exact absurd (by show (σ.set i _ j).phase = _; rw [Sys.set_other σ _ e]; exact hother j e) hj
  · intro j
    show ((σ.set i _ j).done.map Prod.fst).reverse ++ (σ.set i _ j).todo = _
    by_cases e : j = i
    · subst e
      have := h.split j
      rw [ht] at this
      rw [Sys.set_same]
      exact this
    · rw [Sys.set_other σ _ e]; exact h.split j
  · intro j c' x hx
    by_cases e : j = i
    · subst e
      have hx' : (c', x) ∈ (σ.set j ⟨c :: cs, ph', d⟩ j).done := hx
      rw [Sys.set_same] at hx'
      refine h.done j c' x ?_
      rw [ht]
      exact hx'
    · have hx' : (c', x) ∈ (σ.set i ⟨c :: cs, ph', d⟩ j).done := hx
      rw [Sys.set_other σ _ e] at hx'
      exact h.done j c' x hx'

/-- The end of a call. -/
theorem Inv.leave {calls : ι → List Call} {σ : Sys ι} (h : Inv calls σ) {i c cs d x} {ph : Phase} {l : Option ι}
    (ht : σ.threads i = ⟨c :: cs, ph, d⟩) (hx : x.text = c.text)
    (hl : (ph = .idle ∧ l = σ.lock) ∨ (ph ≠ .idle ∧ l = none)) :
    Inv calls ⟨σ.st, l, σ.set i ⟨cs, .idle, (c, x) :: d⟩⟩ := by
  have hphase : ∀ j, ((σ.set i ⟨cs, .idle, (c, x) :: d⟩ j).phase ≠ .idle) →
      j ≠ i ∧ (σ.threads j).phase ≠ .idle := by
    intro j hj
    by_cases e : j = i
    · subst e; rw [Sys.set_same] at hj; exact absurd rfl hj
    · rw [Sys.set_other σ _ e] at hj; exact ⟨e, hj⟩
  have hlock : ∀ j, j ≠ i → (σ.threads j).phase ≠ .idle → l = some j := by
    intro j hj hp
    have h1 := h.holds j hp
    rcases hl with ⟨_, rfl⟩ | ⟨hpi, _⟩
    · exact h1
    · have h2 := h.holds i (by rw [ht]; exact hpi)
      rw [h1] at h2
      exact absurd (Option.some.inj h2) hj
  constructor
  · intro j hj
    obtain ⟨e, hp⟩ := hphase j hj
    exact hlock j e hp
  · intro j hj
    rcases hl with ⟨hpi, rfl⟩ | ⟨_, rfl⟩
    · have hp := h.busy j hj
      have e : j ≠ i := by
        rintro rfl
        rw [ht] at hp
        exact hp hpi
      show (σ.set i _ j).phase ≠ _
      rw [Sys.set_other σ _ e]
      exact hp
    · cases hj
  · intro j hj
    obtain ⟨e, hp⟩ := hphase j hj
    show ∃ c' cs', (σ.set i _ j).todo = c' :: cs' ∧ _ ∧ Fits σ.st c' (σ.set i _ j).phase
    rw [Sys.set_other σ _ e]
    exact h.call j hp
  · intro j
    show ((σ.set i _ j).done.map Prod.fst).reverse ++ (σ.set i _ j).todo = _
    by_cases e : j = i
    · subst e
      have := h.split j
      rw [ht] at this
      rw [Sys.set_same, ← this]
      simp
    · rw [Sys.set_other σ _ e]; exact h.split j
  · intro j c' y hy
    have hy' : (c', y) ∈ (σ.set i ⟨cs, .idle, (c, x) :: d⟩ j).done := hy
    by_cases e : j = i
    · subst e
      rw [Sys.set_same] at hy'
      rcases List.mem_cons.mp hy' with h1 | h1
      · cases h1; exact hx
      · exact h.done j c' y (by rw [ht]; exact h1)
    · rw [Sys.set_other σ _ e] at hy'; exact h.done j c' y hy'

theorem Inv.step (hs : search.Safe) {calls : ι → List Call} {σ σ' : Sys ι} (h : Inv calls σ)
    (hst : Step search σ σ') : Inv calls σ' := by
  have fits : ∀ {i c cs ph d}, σ.threads i = ⟨c :: cs, ph, d⟩ → ph ≠ .idle → Fits σ.st c ph := by
    intro i c cs ph d ht hp
    obtain ⟨c', cs', h1, _, h2⟩ := h.call i (by rw [ht]; exact hp)
    rw [ht] at h1 h2
    cases h1
    exact h2
  cases hst with
  | static ht hm => exact h.leave ht (mapToStatic_some hm) (.inl ⟨rfl, rfl⟩)
  | @acquire i c cs d ht hm hl =>
    have hidle : ∀ j, (σ.threads j).phase = .idle := by
      intro j
      refine Classical.byContradiction fun hn => ?_
      have := h.holds j hn
      rw [hl] at this
      cases this
    constructor
    · intro j hj
      by_cases e : j = i
      · subst e; rfl
      · exact absurd (by show (σ.set i _ j).phase = _; rw [Sys.set_other σ _ e]; exact hidle j) hj
    · intro j hj
      cases hj
      show (σ.set i _ i).phase ≠ _
      rw [Sys.set_same]
      exact nofun
    · intro j hj
      by_cases e : j = i
      · subst e
        show ∃ c' cs', (σ.set j _ j).todo = c' :: cs' ∧ _ ∧ Fits σ.st c' (σ.set j _ j).phase
        rw [Sys.set_same]
        exact ⟨c, cs, rfl, mapToStatic_none.mp hm, [], rfl⟩
      · exact absurd (by show (σ.set i _ j).phase = _; rw [Sys.set_other σ _ e]; exact hidle j) hj
    · intro j
      show ((σ.set i _ j).done.map Prod.fst).reverse ++ (σ.set i _ j).todo = _
      by_cases e : j = i
      · subst e
        have := h.split j
        rw [ht] at this
        rw [Sys.set_same]
        exact this
      · rw [Sys.set_other σ _ e]; exact h.split j
    · intro j c' x hx
      have hx' : (c', x) ∈ (σ.set i ⟨c :: cs, .borrowing c.borrowing, d⟩ j).done := hx
      by_cases e : j = i
      · subst e
        rw [Sys.set_same] at hx'
        exact h.done j c' x (by rw [ht]; exact hx')
      · rw [Sys.set_other σ _ e] at hx'; exact h.done j c' x hx'
  | @borrowStatic i c cs d s left t ht hm =>
    obtain ⟨x, hx⟩ := fits ht nofun
    exact h.inside ht nofun nofun ⟨x ++ [s], by rw [hx]; simp⟩
  | @hit i c cs d k ht hf =>
    have := hs (fun a => strCmp c.text a.text) σ.st.table
    rw [hf] at this
    obtain ⟨a, ha, he⟩ := this
    exact h.inside ht nofun nofun ⟨a, ha, ((strCmp_eq_iff _ _).mp he).symm⟩
  | @miss i c cs d k ht hf =>
    have := hs (fun a => strCmp c.text a.text) σ.st.table
    rw [hf] at this
    exact h.inside ht nofun nofun ⟨this, [], rfl⟩
  | @convertStatic i c cs d k s left t ht hm =>
    obtain ⟨hk, x, hx⟩ := fits ht nofun
    exact h.inside ht nofun nofun ⟨hk, x ++ [s], by rw [hx]; simp⟩
  | @insert i c cs d k ht hk =>
    exact h.inside ht nofun nofun ⟨_, get_insertIdx _ _ _ hk, rfl⟩
  | @finish i c cs d k a ht ha =>
    obtain ⟨a', ha', he⟩ := fits ht nofun
    rw [ha] at ha'
    cases ha'
    exact h.leave ht he (.inr ⟨nofun, rfl⟩)

theorem Inv.steps (hs : search.Safe) {calls : ι → List Call} {n : Nat} {σ σ' : Sys ι} (h : Inv calls σ)
    (hst : Steps search n σ σ') : Inv calls σ' := by
  induction hst with
  | refl => exact h
  | tail _ h2 ih => exact (ih h).step hs h2

theorem Steps.append {n m : Nat} {σ σ' σ'' : Sys ι} (h : Steps search n σ σ') (h' : Steps search m σ' σ'') :
    Steps search (n + m) σ σ'' := by
  induction h' with
  | refl => exact h
  | tail _ h2 ih => exact .tail (ih h) h2

/-! ## Every execution is finite -/

/-- The number of steps a call may take. -/
def Call.cost (c : Call) : Nat := 4 + c.borrowing.length + c.converting.length

/-- The number of steps the call in progress may still take. -/
def Phase.cost (c : Call) : Phase → Nat
  | .idle => c.cost
  | .borrowing left => 3 + left.length + c.converting.length
  | .converting _ left => 2 + left.length
  | .ready _ => 1

def Thread.cost (t : Thread) : Nat := match t.todo with
  | [] => 0
  | c :: cs => t.phase.cost c + (cs.map Call.cost).sum

theorem idle_cost (cs : List Call) (d) : Thread.cost ⟨cs, .idle, d⟩ = (cs.map Call.cost).sum := by
  cases cs <;> simp [Thread.cost, Phase.cost]

theorem cheaper_of {σ : Sys ι} {i : ι} {t0 t : Thread} (ht : σ.threads i = t0) (hc : t.cost < t0.cost) :
    ∃ i', (σ.set i t i').cost < (σ.threads i').cost ∧ ∀ j, j ≠ i' → σ.set i t j = σ.threads j :=
  ⟨i, by rw [Sys.set_same, ht]; exact hc, fun _ e => Sys.set_other σ _ e⟩

theorem Step.cheaper {σ σ' : Sys ι} (h : Step search σ σ') : ∃ i, (σ'.threads i).cost < (σ.threads i).cost ∧
    ∀ j, j ≠ i → σ'.threads j = σ.threads j := by
  cases h with
  | static ht _ =>
    exact cheaper_of ht (by rw [idle_cost, idle_cost]; simp only [List.map_cons, List.sum_cons, Call.cost]; omega)
  | acquire ht _ _ => exact cheaper_of ht (by simp only [Thread.cost, Phase.cost, Call.cost]; omega)
  | borrowStatic ht _ =>
    exact cheaper_of ht (by simp only [Thread.cost, Phase.cost, List.length_cons]; omega)
  | hit ht _ => exact cheaper_of ht (by simp only [Thread.cost, Phase.cost]; omega)
  | miss ht _ => exact cheaper_of ht (by simp only [Thread.cost, Phase.cost]; omega)
  | convertStatic ht _ =>
    exact cheaper_of ht (by simp only [Thread.cost, Phase.cost, List.length_cons]; omega)
  | insert ht _ => exact cheaper_of ht (by simp only [Thread.cost, Phase.cost]; omega)
  | finish ht _ => exact cheaper_of ht (by rw [idle_cost]; simp only [Thread.cost, Phase.cost]; omega)

theorem sum_le {f g : ι → Nat} (hle : ∀ j, g j ≤ f j) (ids : List ι) : (ids.map g).sum ≤ (ids.map f).sum := by
  induction ids with
  | nil => simp
  | cons i is ih => simp only [List.map_cons, List.sum_cons]; have := hle i; omega

theorem sum_lt {f g : ι → Nat} (hle : ∀ j, g j ≤ f j) {i : ι} (hi : g i < f i) {ids : List ι} (hm : i ∈ ids) :
    (ids.map g).sum < (ids.map f).sum := by
  induction ids with
  | nil => cases hm
  | cons j js ih =>
    simp only [List.map_cons, List.sum_cons]
    rcases List.mem_cons.mp hm with rfl | h
    · have := sum_le hle js; omega
    · have := ih h; have := hle j; omega

/-- What is left to do, over all threads. -/
def Sys.cost (ids : List ι) (σ : Sys ι) : Nat := (ids.map fun i => (σ.threads i).cost).sum

theorem Step.cost {σ σ' : Sys ι} (h : Step search σ σ') {ids : List ι} (hids : ∀ i, i ∈ ids) :
    σ'.cost ids < σ.cost ids := by
  obtain ⟨i, hi, ho⟩ := h.cheaper
  refine sum_lt (fun j => ?_) hi (hids i)
  by_cases e : j = i
  · subst e; exact Nat.le_of_lt hi
  · rw [ho j e]; exact Nat.le_refl _

theorem Steps.cost {n : Nat} {σ σ' : Sys ι} (h : Steps search n σ σ') {ids : List ι} (hids : ∀ i, i ∈ ids) :
    n + σ'.cost ids ≤ σ.cost ids := by
  induction h with
  | refl => omega
  | tail _ h2 ih => have := h2.cost hids; omega

/-- C98: every execution is finite. `ids` lists the threads. A call takes at most four steps and one for every name
made by the caller's code, whatever the other threads do. -/
theorem C98_bound (calls : ι → List Call) {ids : List ι} (hids : ∀ i, i ∈ ids) {n : Nat} {σ : Sys ι}
    (h : Steps search n (Sys.init calls) σ) :
    n ≤ (ids.map fun i =>
      ((calls i).map fun c => 4 + c.borrowing.length + c.converting.length).sum).sum := by
  have h1 := h.cost hids
  have h2 : (Sys.init calls).cost ids = (ids.map fun i =>
      ((calls i).map fun c => 4 + c.borrowing.length + c.converting.length).sum).sum := by
    unfold Sys.cost Sys.init
    simp only [idle_cost]
    rfl
  omega

/-- C98: whoever calls, a call that returns gives the text it was called with, and the calls of a thread return in
their order. -/
theorem C98_text (hs : search.Safe) (calls : ι → List Call) {n : Nat} {σ : Sys ι}
    (h : Steps search n (Sys.init calls) σ) (i : ι) :
    (∀ c x, (c, x) ∈ (σ.threads i).done → x.text = c.text) ∧
    ((σ.threads i).done.map Prod.fst).reverse ++ (σ.threads i).todo = calls i :=
  ⟨((Inv.init calls).steps hs h).done i, ((Inv.init calls).steps hs h).split i⟩

/-! ## When an execution gets stuck -/

/-- The thread waits for itself: it holds the mutex, and the code of its caller makes the name `s`, which needs it. -/
def SelfBlocked (σ : Sys ι) (i : ι) (s : List Char) : Prop :=
  σ.lock = some i ∧ ¬ WellKnown s ∧ ∃ c cs left d,
    (σ.threads i = ⟨c :: cs, .borrowing (s :: left), d⟩ ∧ s ∈ c.borrowing) ∨
    ∃ k, σ.threads i = ⟨c :: cs, .converting k (s :: left), d⟩ ∧ s ∈ c.converting

/-- C98: an execution can be continued unless all calls have returned or a thread waits for itself. -/
theorem C98_stuck (hs : search.Safe) (calls : ι → List Call) {n : Nat} {σ : Sys ι}
    (h : Steps search n (Sys.init calls) σ) (hstuck : ∀ σ', ¬ Step search σ σ') :
    (∀ i, (σ.threads i).todo = []) ∨ ∃ i s, SelfBlocked σ i s := by
  have hinv := (Inv.init calls).steps hs h
  cases hl : σ.lock with
  | none =>
    left
    intro i
    have hidle : (σ.threads i).phase = .idle := by
      refine Classical.byContradiction fun hn => ?_
      have := hinv.holds i hn
      rw [hl] at this
      cases this
    refine Classical.byContradiction fun hne => ?_
    obtain ⟨c, cs, hcs⟩ := List.exists_cons_of_ne_nil hne
    have ht : σ.threads i = ⟨c :: cs, .idle, (σ.threads i).done⟩ := by rw [← hcs, ← hidle]
    cases hm : Name.mapToStatic c.text with
    | some t => exact hstuck _ (.static ht hm)
    | none => exact hstuck _ (.acquire ht hm hl)
  | some j =>
    right
    have hj := hinv.busy j hl
    obtain ⟨c, cs, hcs, _, hf⟩ := hinv.call j hj
    have ht : σ.threads j = ⟨c :: cs, (σ.threads j).phase, (σ.threads j).done⟩ := by rw [← hcs]
    cases hp : (σ.threads j).phase with
    | idle => exact absurd hp hj
    | borrowing left =>
      rw [hp] at ht hf
      cases left with
      | nil =>
        have hsearch := hs (fun a => strCmp c.text a.text) σ.st.table
        cases hr : search (fun a => strCmp c.text a.text) σ.st.table with
        | found k => exact absurd (.hit ht hr) (hstuck _)
        | missing k => exact absurd (.miss ht hr) (hstuck _)
        | oob => rw [hr] at hsearch; exact hsearch.elim
      | cons s left =>
        cases hm : Name.mapToStatic s with
        | some t => exact absurd (.borrowStatic ht hm) (hstuck _)
        | none =>
          obtain ⟨x, hx⟩ := hf
          exact ⟨j, s, hl, mapToStatic_none.mp hm, c, cs, left, _, .inl ⟨ht, by rw [hx]; simp⟩⟩
    | converting k left =>
      rw [hp] at ht hf
      obtain ⟨hk, x, hx⟩ := hf
      cases left with
      | nil => exact absurd (.insert ht hk) (hstuck _)
      | cons s left =>
        cases hm : Name.mapToStatic s with
        | some t => exact absurd (.convertStatic ht hm) (hstuck _)
        | none => exact ⟨j, s, hl, mapToStatic_none.mp hm, c, cs, left, _, .inr ⟨k, ht, by rw [hx]; simp⟩⟩
    | ready k =>
      rw [hp] at ht hf
      obtain ⟨a, ha, _⟩ := hf
      exact absurd (.finish ht ha) (hstuck _)

/-- The code of no caller makes a name that needs the mutex. Ordinary strings make none at all. -/
def Harmless (calls : ι → List Call) : Prop :=
  ∀ i, ∀ c ∈ calls i, ∀ s, s ∈ c.borrowing ∨ s ∈ c.converting → WellKnown s

/-- C98, what holds: if no caller's code makes a name that needs the mutex, then some thread can step as long as a call
has not returned, and every execution, however it has gone so far, ends with all calls returned. Missing: callers whose
code makes names. -/
theorem C98_returns_partial (hs : search.Safe) {calls : ι → List Call} (hc : Harmless calls) {ids : List ι}
    (hids : ∀ i, i ∈ ids) {n : Nat} {σ : Sys ι} (h : Steps search n (Sys.init calls) σ) :
    ((∃ i, (σ.threads i).todo ≠ []) → ∃ σ', Step search σ σ') ∧
    ∃ m σ', Steps search m σ σ' ∧ ∀ i, (σ'.threads i).todo = [] ∧
      ((σ'.threads i).done.map Prod.fst).reverse = calls i := by
  have progress : ∀ {n σ}, Steps search n (Sys.init calls) σ → (∃ i, (σ.threads i).todo ≠ []) →
      ∃ σ', Step search σ σ' := by
    rintro n σ h ⟨i, hi⟩
    refine Classical.byContradiction fun hno => ?_
    rcases C98_stuck hs calls h (fun σ' hst => hno ⟨σ', hst⟩) with h1 | ⟨j, s, _, hw, c, cs, left, d, h2⟩
    · exact hi (h1 i)
    · have hsplit := ((Inv.init calls).steps hs h).split j
      have hmem : (σ.threads j).todo = c :: cs → c ∈ calls j := fun e => by rw [← hsplit, e]; simp
      rcases h2 with ⟨ht, hm⟩ | ⟨k, ht, hm⟩
      · exact hw (hc j c (hmem (by rw [ht])) s (.inl hm))
      · exact hw (hc j c (hmem (by rw [ht])) s (.inr hm))
  refine ⟨progress h, ?_⟩
  generalize hcost : σ.cost ids = k
  induction k using Nat.strongRecOn generalizing n σ with
  | ind k ih =>
    by_cases hfin : ∀ i, (σ.threads i).todo = []
    · refine ⟨0, σ, .refl, fun i => ⟨hfin i, ?_⟩⟩
      have := ((Inv.init calls).steps hs h).split i
      rwa [hfin i, List.append_nil] at this
    · have : ∃ i, (σ.threads i).todo ≠ [] := Classical.byContradiction fun hn =>
        hfin fun i => Classical.byContradiction fun hne => hn ⟨i, hne⟩
      obtain ⟨σ', hst⟩ := progress h this
      obtain ⟨m, σ'', h1, h2⟩ := ih _ (by rw [← hcost]; exact hst.cost hids) (.tail h hst) rfl
      exact ⟨1 + m, σ'', (Steps.tail .refl hst).append h1, h2⟩

/-- C98, where it fails: once a thread waits for itself it does so forever, the mutex is never free again, and no call
that needs it ever returns, in any thread. -/
theorem C98_blocked (hs : search.Safe) (calls : ι → List Call) {n : Nat} {σ : Sys ι}
    (h : Steps search n (Sys.init calls) σ) {i : ι} {s : List Char} (hb : SelfBlocked σ i s) {m : Nat} {σ' : Sys ι}
    (h' : Steps search m σ σ') :
    σ'.lock = some i ∧ σ'.threads i = σ.threads i ∧ σ'.st = σ.st ∧
    ∀ j c x, (c, x) ∈ (σ'.threads j).done → (c, x) ∈ (σ.threads j).done ∨ WellKnown c.text := by
  induction h' with
  | refl => exact ⟨hb.1, rfl, rfl, fun _ _ _ h => .inl h⟩
  | @tail m σ₀ σ₁ σ₂ h1 h2 ih =>
    obtain ⟨hl, hti, hst, hd⟩ := ih h hb
    obtain ⟨_, hw, c, cs, left, d, hph⟩ := hb
    have hinv := ((Inv.init calls).steps hs h).steps hs h1
    have hnone := mapToStatic_none.mpr hw
    have hidle : ∀ j, j ≠ i → (σ₁.threads j).phase = .idle := by
      intro j hj
      refine Classical.byContradiction fun hn => hj ?_
      have := hinv.holds j hn
      rw [hl] at this
      exact (Option.some.inj this).symm
    -- a step inside a call would be one of the thread that waits
    have hno : ∀ {j c' cs' ph d'}, σ₁.threads j = ⟨c' :: cs', ph, d'⟩ → ph ≠ .idle →
        ph = .borrowing (s :: left) ∨ ∃ k, ph = .converting k (s :: left) := by
      intro j c' cs' ph d' ht hp
      have e : j = i := Classical.byContradiction fun e => hp (by have := hidle j e; rw [ht] at this; exact this)
      subst e
      rw [hti] at ht
      rcases hph with ⟨h3, _⟩ | ⟨k, h3, _⟩
      · rw [h3] at ht; cases ht; exact .inl rfl
      · rw [h3] at ht; cases ht; exact .inr ⟨k, rfl⟩
    cases h2 with
    | @static j c' cs' t d' ht hm =>
      have e : j ≠ i := by
        rintro rfl
        rw [hti] at ht
        rcases hph with ⟨h3, _⟩ | ⟨k, h3, _⟩ <;> (rw [h3] at ht; cases ht)
      refine ⟨hl, ?_, hst, fun j' c'' x hx => ?_⟩
      · show σ₁.set j _ i = _
        rw [Sys.set_other σ₁ _ (Ne.symm e)]
        exact hti
      · have hx' : (c'', x) ∈ (σ₁.set j ⟨cs', .idle, (c', .static t) :: d'⟩ j').done := hx
        by_cases e' : j' = j
        · subst e'
          rw [Sys.set_same] at hx'
          rcases List.mem_cons.mp hx' with h3 | h3
          · cases h3
            right
            refine Classical.byContradiction fun hn => ?_
            rw [mapToStatic_none.mpr hn] at hm
            cases hm
          · exact hd j' c'' x (by rw [ht]; exact h3)
        · rw [Sys.set_other σ₁ _ e'] at hx'
          exact hd j' c'' x hx'
    | acquire _ _ hl' => rw [hl] at hl'; cases hl'
    | borrowStatic ht hm =>
      rcases hno ht nofun with h3 | ⟨k, h3⟩
      · cases h3; rw [hnone] at hm; cases hm
      · cases h3
    | hit ht _ => rcases hno ht nofun with h3 | ⟨k, h3⟩ <;> cases h3
    | miss ht _ => rcases hno ht nofun with h3 | ⟨k, h3⟩ <;> cases h3
    | convertStatic ht hm =>
      rcases hno ht nofun with h3 | ⟨k, h3⟩
      · cases h3
      · cases h3; rw [hnone] at hm; cases hm
    | insert ht _ => rcases hno ht nofun with h3 | ⟨k, h3⟩ <;> cases h3
    | finish ht _ => rcases hno ht nofun with h3 | ⟨k, h3⟩ <;> cases h3

/-- C98 fails: one thread makes a name from a value whose conversion makes another name, a second thread makes a name
from an ordinary string. After two steps neither can ever go on. The names are arbitrary. -/
theorem C98_false (hs : search.Safe) (s t u : List Char) (hs' : ¬ WellKnown s) (ht : ¬ WellKnown t)
    (hu : ¬ WellKnown u) :
    ∃ σ : Sys Bool, Steps search 2 (Sys.init fun b => if b then [⟨s, [], [t]⟩] else [.plain u]) σ ∧
      (σ.threads false).todo = [.plain u] ∧ ∀ σ', ¬ Step search σ σ' := by
  have hempty : search (fun a => strCmp s a.text) [] = .missing 0 := by
    have := hs (fun a => strCmp s a.text) []
    cases hr : search (fun a => strCmp s a.text) [] with
    | found i => rw [hr] at this; obtain ⟨x, hx, _⟩ := this; cases hx
    | missing i => rw [hr] at this; simp at this; rw [this]
    | oob => rw [hr] at this; exact this.elim
  let σ0 : Sys Bool := Sys.init fun b => if b then [⟨s, [], [t]⟩] else [.plain u]
  let σ1 : Sys Bool := ⟨σ0.st, some true, σ0.set true ⟨[⟨s, [], [t]⟩], .borrowing [], []⟩⟩
  let σ2 : Sys Bool := ⟨σ1.st, σ1.lock, σ1.set true ⟨[⟨s, [], [t]⟩], .converting 0 [t], []⟩⟩
  have h1 : Step search σ0 σ1 :=
    .acquire (i := true) (c := ⟨s, [], [t]⟩) (cs := []) (d := []) rfl (mapToStatic_none.mpr hs') rfl
  have h2 : Step search σ1 σ2 :=
    .miss (i := true) (c := ⟨s, [], [t]⟩) (cs := []) (d := []) (k := 0) rfl hempty
  have hσ : Steps search 2 σ0 σ2 := .tail (.tail .refl h1) h2
  have hb : SelfBlocked σ2 true t := ⟨rfl, ht, _, _, _, _, .inr ⟨0, rfl, by simp⟩⟩
  refine ⟨σ2, hσ, rfl, fun σ' hst => ?_⟩
  have hcheap := hst.cheaper
  obtain ⟨hl, hti, _, hd⟩ := C98_blocked hs _ hσ hb (.tail .refl hst)
  obtain ⟨i, hlt, _⟩ := hcheap
  cases i with
  | true => rw [hti] at hlt; omega
  | false =>
    have hinv := ((Inv.init _).steps hs hσ).step hs hst
    have hidle : (σ'.threads false).phase = .idle := by
      refine Classical.byContradiction fun hn => ?_
      have := hinv.holds false hn
      rw [hl] at this
      cases this
    have hsplit := hinv.split false
    have hdone : (σ'.threads false).done = [] := by
      cases hdd : (σ'.threads false).done with
      | nil => rfl
      | cons y ys =>
        have hc : y.1 = .plain u := by
          have hm : y.1 ∈ ((σ'.threads false).done.map Prod.fst).reverse ++ (σ'.threads false).todo := by
            rw [hdd]; simp
          rw [hsplit] at hm
          simpa using hm
        rcases hd false y.1 y.2 (by rw [hdd]; exact List.mem_cons_self) with h3 | h3
        · cases h3
        · rw [hc] at h3; exact absurd h3 hu
    rw [hdone] at hsplit
    have : (σ'.threads false) = ⟨[.plain u], .idle, []⟩ := by
      have h4 : (σ'.threads false).todo = [.plain u] := hsplit
      rw [← h4, ← hidle, ← hdone]
    rw [this] at hlt
    exact absurd hlt (Nat.lt_irrefl _)

/-- The same in one thread: a conversion that makes a name which needs the mutex does not return. -/
example : ∃ σ : Sys Unit, Steps binarySearchBy 2 (Sys.init fun _ => [⟨c!"a", [], [c!"b"]⟩]) σ ∧
    SelfBlocked σ () c!"b" :=
  ⟨_, .tail (.tail .refl (.acquire (i := ()) (c := ⟨c!"a", [], [c!"b"]⟩) (cs := []) (d := []) rfl rfl rfl))
    (.miss (i := ()) (c := ⟨c!"a", [], [c!"b"]⟩) (cs := []) (d := []) (k := 0) rfl (by decide +kernel)),
    rfl, by unfold WellKnown; decide, _, _, _, _, .inr ⟨0, rfl, by simp⟩⟩

/-- Harmless callers: a conversion that makes the name `object`. -/
example : Harmless fun b : Bool => if b then [⟨c!"a", [c!"object"], [c!"number"]⟩] else [.plain c!"a"] := by
  intro b c hc s hs
  cases b
  · simp at hc; subst hc; simp [Call.plain] at hs
  · simp at hc
    subst hc
    rcases hs with h | h <;> simp at h <;> subst h <;> simp [WellKnown]

end Pddl.Reentrant
