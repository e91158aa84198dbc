import Verif.Name

/-!
# The interning table behind `Name::new`

Model of `/repo/src/types/name.rs:10-14` (the global `Mutex<Vec<Arc<String>>>`) and
`/repo/src/types/name.rs:86-112` (`Name::new_string_interned`), for the default feature set, which
includes `interning`.

`Arc<String>` is modelled as an allocation number plus the (immutable) text. Allocation failure and
lock poisoning are not modelled.
-/

namespace Pddl

/-- `str::cmp`: bytewise lexicographic on UTF-8, which is the same as lexicographic on code points. -/
def strCmp : List Char → List Char → Ordering
  | [], [] => .eq
  | [], _ :: _ => .lt
  | _ :: _, [] => .gt
  | a :: s, b :: t =>
    if a.toNat < b.toNat then .lt else if b.toNat < a.toNat then .gt else strCmp s t

/-- An `Arc<String>`. -/
structure Arc where
  id : Nat
  text : List Char
  deriving DecidableEq, Repr

/-- Result of `binary_search_by`. -/
inductive Search where
  | found (i : Nat)
  | missing (i : Nat)
  /-- A read outside of the slice; would be undefined behaviour in Rust. -/
  | oob
  deriving DecidableEq, Repr

/-- The loop of `<[T]>::binary_search_by` in Rust 1.68 (the `rust-version` of
`/repo/Cargo.toml:13`), with `size = right - left`:
```text
while left < right {
    let mid = left + size / 2;
    let cmp = f(unsafe { self.get_unchecked(mid) });
    if cmp == Less { left = mid + 1; } else if cmp == Greater { right = mid; }
    else { return Ok(mid); }
    size = right - left;
}
Err(left)
```
-/
def binarySearchLoop {α : Type} (f : α → Ordering) (l : List α) (left right : Nat) : Search :=
  if h : left < right then
    let mid := left + (right - left) / 2
    match l[mid]? with
    | none => .oob
    | some x => match f x with
      | .lt => binarySearchLoop f l (mid + 1) right
      | .gt => binarySearchLoop f l left mid
      | .eq => .found mid
  else .missing left
termination_by right - left

/-- `<[T]>::binary_search_by`. -/
def binarySearchBy {α : Type} (f : α → Ordering) (l : List α) : Search :=
  binarySearchLoop f l 0 l.length

/-- A search procedure usable in place of `binary_search_by`. The theorems hold for every
procedure that meets the documented contract, in particular for the one above. -/
abbrev Searcher := (Arc → Ordering) → List Arc → Search

/-- The process-wide state: the table, and the next allocation number. -/
structure Interner where
  table : List Arc
  next : Nat

/-- `Mutex::new(Vec::default())`, `/repo/src/types/name.rs:13`. -/
def Interner.init : Interner := ⟨[], 0⟩

/-- A name together with its allocation: `NameVariant`, `/repo/src/types/name.rs:28-32`. -/
inductive NameRef where
  | str (a : Arc)
  | static (s : List Char)
  deriving DecidableEq, Repr

/-- `AsRef<str>`, `/repo/src/types/name.rs:149-154,214-223`. -/
def NameRef.text : NameRef → List Char
  | .str a => a.text
  | .static s => s

/-- The value as compared by the derived `PartialEq` (`Arc<String>` compares by content). -/
def NameRef.toName : NameRef → Name
  | .str a => .str a.text
  | .static s => .static s

/-- `Name::new_string_interned`, `/repo/src/types/name.rs:91-112`, executed while holding the lock.
`none` is the panic of an out-of-bounds index. -/
def internString (search : Searcher) (st : Interner) (s : List Char) : Option (Arc × Interner) :=
  match search (fun a => strCmp s a.text) st.table with
  | .found i => (st.table[i]?).map fun a => (a, st)
  | .missing i =>
    if i ≤ st.table.length then
      let st' : Interner := ⟨st.table.insertIdx i ⟨st.next, s⟩, st.next + 1⟩
      (st'.table[i]?).map fun a => (a, st')
    else none
  | .oob => none

/-- `Name::new`, `/repo/src/types/name.rs:53-59`. -/
def newName (search : Searcher) (st : Interner) (s : List Char) : Option (NameRef × Interner) :=
  match Name.mapToStatic s with
  | some t => some (.static t, st)
  | none => (internString search st s).map fun x => (.str x.1, x.2)

/-- A sequence of `Name::new` calls. -/
def runCalls (search : Searcher) : Interner → List (List Char) → Option (List NameRef × Interner)
  | st, [] => some ([], st)
  | st, s :: ss => do
    let (n, st) ← newName search st s
    let (ns, st) ← runCalls search st ss
    some (n :: ns, st)

/-! ## Threads

Each thread executes a list of `Name::new` calls. The steps of one call follow
`/repo/src/types/name.rs:91-112`: taking the mutex, the search, the insertion, and cloning the entry
(with which the guard is dropped at the end of the block). Any thread may run at any time; a thread
that wants the mutex while another holds it cannot step. -/

/-- Where a thread is inside a call. -/
inductive Phase where
  /-- between calls -/
  | idle
  /-- holds the mutex -/
  | locked
  /-- holds the mutex, search done -/
  | searched (r : Search)
  /-- holds the mutex, the entry at this index is about to be cloned -/
  | ready (i : Nat)
  deriving DecidableEq, Repr

/-- A thread: the calls still to make (the head is the one in progress), the phase of the current
call, and the finished calls with their results. -/
structure Thread where
  todo : List (List Char)
  phase : Phase
  done : List (List Char × NameRef)

/-- The process: interner, holder of the mutex, threads. -/
structure Sys (ι : Type) where
  st : Interner
  lock : Option ι
  threads : ι → Thread

/-- Replaces one thread. -/
def Sys.set {ι : Type} [DecidableEq ι] (σ : Sys ι) (i : ι) (t : Thread) : ι → Thread :=
  fun j => if j = i then t else σ.threads j

/-- One step of one thread. -/
inductive Step {ι : Type} [DecidableEq ι] (search : Searcher) : Sys ι → Sys ι → Prop
  /-- `map_to_static` hits: no mutex involved. -/
  | static {σ i s ss t d} : σ.threads i = ⟨s :: ss, .idle, d⟩ → Name.mapToStatic s = some t →
      Step search σ ⟨σ.st, σ.lock, σ.set i ⟨ss, .idle, (s, .static t) :: d⟩⟩
  /-- `STRING_INTERNING.lock()` -/
  | acquire {σ i s ss d} : σ.threads i = ⟨s :: ss, .idle, d⟩ → Name.mapToStatic s = none →
      σ.lock = none → Step search σ ⟨σ.st, some i, σ.set i ⟨s :: ss, .locked, d⟩⟩
  /-- `guard.binary_search_by(..)` -/
  | search {σ i s ss d} : σ.threads i = ⟨s :: ss, .locked, d⟩ →
      Step search σ ⟨σ.st, σ.lock,
        σ.set i ⟨s :: ss, .searched (search (fun a => strCmp s a.text) σ.st.table), d⟩⟩
  /-- `Ok(pos) => pos` -/
  | hit {σ i s ss d k} : σ.threads i = ⟨s :: ss, .searched (.found k), d⟩ →
      Step search σ ⟨σ.st, σ.lock, σ.set i ⟨s :: ss, .ready k, d⟩⟩
  /-- `guard.insert(pos, Arc::new(name.into()))` -/
  | insert {σ i s ss d k} : σ.threads i = ⟨s :: ss, .searched (.missing k), d⟩ →
      k ≤ σ.st.table.length →
      Step search σ ⟨⟨σ.st.table.insertIdx k ⟨σ.st.next, s⟩, σ.st.next + 1⟩, σ.lock,
        σ.set i ⟨s :: ss, .ready k, d⟩⟩
  /-- `guard[pos].clone()`, then the guard is dropped -/
  | finish {σ i s ss d k a} : σ.threads i = ⟨s :: ss, .ready k, d⟩ → σ.st.table[k]? = some a →
      Step search σ ⟨σ.st, none, σ.set i ⟨ss, .idle, (s, .str a) :: d⟩⟩

/-- Executions. -/
inductive Steps {ι : Type} [DecidableEq ι] (search : Searcher) : Sys ι → Sys ι → Prop
  | refl {σ} : Steps search σ σ
  | tail {σ σ' σ''} : Steps search σ σ' → Step search σ' σ'' → Steps search σ σ''

/-- The initial state: empty table, free mutex, nothing done. -/
def Sys.init {ι : Type} (calls : ι → List (List Char)) : Sys ι :=
  ⟨Interner.init, none, fun i => ⟨calls i, .idle, []⟩⟩

end Pddl
