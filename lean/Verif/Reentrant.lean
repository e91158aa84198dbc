import Verif.Intern

/-!
# `Name::new` with code of the caller

`Name::new` takes any `S: Into<String> + AsRef<str>`. While the mutex is held it calls `as_ref`, and `into` if the
text is not in the table (`/repo/src/types/name.rs:91-112`). Both are code of the caller, which may itself make
names. `Verif/Intern.lean` has threads that pass ordinary strings only; here a call says which names the caller's
code makes. `Mutex::lock` on a mutex that the same thread holds does not return (documentation of
`std::sync::Mutex::lock`: it "will not return", whether it blocks or panics is left open; here it blocks).

Simplifications: `as_ref` and `into` give the same text (`Verif/Release.lean` has callers for which they do not), the
names made by `as_ref` when it is called outside of the mutex (`/repo/src/types/name.rs:54`) are calls of their own
in the list of the thread, and names made by the caller's code are made from ordinary strings.
-/

namespace Pddl.Reentrant
open Pddl

/-- A call of `Name::new`. -/
structure Call where
  /-- the text -/
  text : List Char
  /-- the names made by `as_ref` while the mutex is held -/
  borrowing : List (List Char)
  /-- the names made by `into` while the mutex is held -/
  converting : List (List Char)
  deriving DecidableEq, Repr

/-- `Name::new` of a string or a string slice. -/
def Call.plain (s : List Char) : Call := ⟨s, [], []⟩

/-- Where a thread is inside a call. -/
inductive Phase where
  /-- between calls -/
  | idle
  /-- holds the mutex, inside `name.as_ref()`; the names still to make -/
  | borrowing (left : List (List Char))
  /-- holds the mutex, inside `name.into()`; the place for the entry, the names still to make -/
  | converting (k : Nat) (left : List (List Char))
  /-- holds the mutex, the entry at this index is about to be cloned -/
  | ready (k : Nat)
  deriving DecidableEq, Repr

/-- A thread: the calls still to make (the head is the one in progress), the phase of the current call, and the
finished calls with their results, last first. -/
structure Thread where
  todo : List Call
  phase : Phase
  done : List (Call × NameRef)

/-- The process: table, holder of the mutex, threads. -/
structure Sys (ι : Type) where
  st : Interner
  lock : Option ι
  threads : ι → Thread

/-- Replaces one thread. -/
def Sys.set {ι : Type} [DecidableEq ι] (σ : Sys ι) (i : ι) (t : Thread) : ι → Thread :=
  fun j => if j = i then t else σ.threads j

/-- One step of one thread, `/repo/src/types/name.rs:53-59,91-109`. A thread that wants the mutex while it is held, by
another thread or by itself, cannot step. -/
inductive Step {ι : Type} [DecidableEq ι] (search : Searcher) : Sys ι → Sys ι → Prop
  /-- `map_to_static` hits: no mutex involved. -/
  | static {σ i c cs t d} : σ.threads i = ⟨c :: cs, .idle, d⟩ → Name.mapToStatic c.text = some t →
      Step search σ ⟨σ.st, σ.lock, σ.set i ⟨cs, .idle, (c, .static t) :: d⟩⟩
  /-- `STRING_INTERNING.lock()` -/
  | acquire {σ i c cs d} : σ.threads i = ⟨c :: cs, .idle, d⟩ → Name.mapToStatic c.text = none →
      σ.lock = none → Step search σ ⟨σ.st, some i, σ.set i ⟨c :: cs, .borrowing c.borrowing, d⟩⟩
  /-- `as_ref` makes a well-known name, for which `map_to_static` hits. For all other names it would need the mutex,
  which is held. -/
  | borrowStatic {σ i c cs d s left t} : σ.threads i = ⟨c :: cs, .borrowing (s :: left), d⟩ →
      Name.mapToStatic s = some t →
      Step search σ ⟨σ.st, σ.lock, σ.set i ⟨c :: cs, .borrowing left, d⟩⟩
  /-- `guard.binary_search_by(..)`, `Ok(pos) => pos` -/
  | hit {σ i c cs d k} : σ.threads i = ⟨c :: cs, .borrowing [], d⟩ →
      search (fun a => strCmp c.text a.text) σ.st.table = .found k →
      Step search σ ⟨σ.st, σ.lock, σ.set i ⟨c :: cs, .ready k, d⟩⟩
  /-- `guard.binary_search_by(..)`, `Err(pos)`: `name.into()` is called. -/
  | miss {σ i c cs d k} : σ.threads i = ⟨c :: cs, .borrowing [], d⟩ →
      search (fun a => strCmp c.text a.text) σ.st.table = .missing k →
      Step search σ ⟨σ.st, σ.lock, σ.set i ⟨c :: cs, .converting k c.converting, d⟩⟩
  /-- `into` makes a well-known name. -/
  | convertStatic {σ i c cs d k s left t} : σ.threads i = ⟨c :: cs, .converting k (s :: left), d⟩ →
      Name.mapToStatic s = some t →
      Step search σ ⟨σ.st, σ.lock, σ.set i ⟨c :: cs, .converting k left, d⟩⟩
  /-- `guard.insert(pos, Arc::new(..))` -/
  | insert {σ i c cs d k} : σ.threads i = ⟨c :: cs, .converting k [], d⟩ → k ≤ σ.st.table.length →
      Step search σ ⟨⟨σ.st.table.insertIdx k ⟨σ.st.next, c.text⟩, σ.st.next + 1⟩, σ.lock,
        σ.set i ⟨c :: cs, .ready k, d⟩⟩
  /-- `guard[pos].clone()`, then the guard is dropped -/
  | finish {σ i c cs d k a} : σ.threads i = ⟨c :: cs, .ready k, d⟩ → σ.st.table[k]? = some a →
      Step search σ ⟨σ.st, none, σ.set i ⟨cs, .idle, (c, .str a) :: d⟩⟩

/-- Executions of a number of steps. -/
inductive Steps {ι : Type} [DecidableEq ι] (search : Searcher) : Nat → Sys ι → Sys ι → Prop
  | refl {σ} : Steps search 0 σ σ
  | tail {n σ σ' σ''} : Steps search n σ σ' → Step search σ' σ'' → Steps search (n + 1) σ σ''

/-- The initial state: empty table, free mutex, nothing done. -/
def Sys.init {ι : Type} (calls : ι → List Call) : Sys ι :=
  ⟨Interner.init, none, fun i => ⟨calls i, .idle, []⟩⟩

end Pddl.Reentrant
