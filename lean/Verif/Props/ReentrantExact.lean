import Verif.Props.Reentrant

/-!
# C98: exactly which callers can stop a program

The table of `Verif/Intern.lean` is as good with callers that make names (one allocation for a text), and an execution
that never ends exists exactly if some thread has a call whose `as_ref` makes a name, or whose `into` does and which is
the first call of the thread with its text.
-/

namespace Pddl.Reentrant
open Pddl

variable {ι : Type} [DecidableEq ι] {search : Searcher}

/-- What holds of the table in all reachable states. -/
structure Good (search : Searcher) (σ : Sys ι) : Prop where
  table : Pddl.Inv σ.st
  done : ∀ i c x, (c, x) ∈ (σ.threads i).done → ResultIn σ.st c.text x
  ready : ∀ i c cs k d, σ.threads i = ⟨c :: cs, .ready k, d⟩ → ∃ a, σ.st.table[k]? = some a ∧ a.text = c.text
  miss : ∀ i c cs k left d, σ.threads i = ⟨c :: cs, .converting k left, d⟩ →
    SearchOk (fun a : Arc => strCmp c.text a.text) σ.st.table (.missing k)

theorem Good.init (calls : ι → List Call) : Good search (Sys.init calls) where
  table := Pddl.Inv.init
  done i c x h := by simp [Sys.init] at h
  ready i c cs k d h := by have := congrArg Thread.phase h; cases this
  miss i c cs k left d h := by have := congrArg Thread.phase h; cases this

/-- A step that leaves the table as it is. -/
theorem Good.keep {σ : Sys ι} (h : Good search σ) {i : ι} {t : Thread} {l : Option ι}
    (hd : ∀ c x, (c, x) ∈ t.done → (c, x) ∈ (σ.threads i).done ∨ ResultIn σ.st c.text x)
    (hr : ∀ c cs k d, t = ⟨c :: cs, .ready k, d⟩ → ∃ a, σ.st.table[k]? = some a ∧ a.text = c.text)
    (hm : ∀ c cs k left d, t = ⟨c :: cs, .converting k left, d⟩ →
      SearchOk (fun a : Arc => strCmp c.text a.text) σ.st.table (.missing k)) :
    Good search ⟨σ.st, l, σ.set i t⟩ where
  table := h.table
  done j c x hx := by
    have hx' : (c, x) ∈ (σ.set i t j).done := hx
    by_cases e : j = i
    · subst e
      rw [Sys.set_same] at hx'
      rcases hd c x hx' with h1 | h1
      · exact h.done j c x h1
      · exact h1
    · rw [Sys.set_other σ _ e] at hx'
      exact h.done j c x hx'
  ready j c cs k d ht := by
    have ht' : σ.set i t j = _ := ht
    by_cases e : j = i
    · subst e; rw [Sys.set_same] at ht'; exact hr c cs k d ht'
    · rw [Sys.set_other σ _ e] at ht'; exact h.ready j c cs k d ht'
  miss j c cs k left d ht := by
    have ht' : σ.set i t j = _ := ht
    by_cases e : j = i
    · subst e; rw [Sys.set_same] at ht'; exact hm c cs k left d ht'
    · rw [Sys.set_other σ _ e] at ht'; exact h.miss j c cs k left d ht'

theorem Good.step (hs : search.Correct) {calls : ι → List Call} {σ σ' : Sys ι} (hi : Inv calls σ)
    (h : Good search σ) (hst : Step search σ σ') : Good search σ' := by
  cases hst with
  | @static i c cs t d ht hm =>
    refine h.keep (fun c' x hx => ?_) (fun _ _ _ _ e => by cases e) (fun _ _ _ _ _ e => by cases e)
    rcases List.mem_cons.mp hx with h1 | h1
    · cases h1
      right
      left
      have hw : WellKnown c.text := Classical.byContradiction fun hn => by
        rw [mapToStatic_none.mpr hn] at hm; cases hm
      exact ⟨hw, by rw [mapToStatic_some hm]⟩
    · left; rw [ht]; exact h1
  | acquire ht _ _ =>
    exact h.keep (fun c' x hx => .inl (by rw [ht]; exact hx)) (fun _ _ _ _ e => by cases e)
      (fun _ _ _ _ _ e => by cases e)
  | borrowStatic ht _ =>
    exact h.keep (fun c' x hx => .inl (by rw [ht]; exact hx)) (fun _ _ _ _ e => by cases e)
      (fun _ _ _ _ _ e => by cases e)
  | @hit i c cs d k ht hf =>
    refine h.keep (fun c' x hx => .inl (by rw [ht]; exact hx)) (fun _ _ _ _ e => ?_) (fun _ _ _ _ _ e => by cases e)
    cases e
    have := hs _ _ (h.table.partitioned c.text)
    rw [hf] at this
    obtain ⟨a, ha, he⟩ := this
    exact ⟨a, ha, ((strCmp_eq_iff _ _).mp he).symm⟩
  | @miss i c cs d k ht hf =>
    refine h.keep (fun c' x hx => .inl (by rw [ht]; exact hx)) (fun _ _ _ _ e => by cases e) (fun _ _ _ _ _ e => ?_)
    cases e
    have := hs _ _ (h.table.partitioned c.text)
    rw [hf] at this
    exact this
  | @convertStatic i c cs d k s left t ht _ =>
    refine h.keep (fun c' x hx => .inl (by rw [ht]; exact hx)) (fun _ _ _ _ e => by cases e) (fun _ _ _ _ _ e => ?_)
    cases e
    exact h.miss i _ _ _ _ _ ht
  | @insert i c cs d k ht hk =>
    obtain ⟨h1, h2, h3⟩ := h.table.insert (h.miss i _ _ _ _ _ ht)
    have hl := hi.holds i (by rw [ht]; exact nofun)
    have hother : ∀ j, j ≠ i → (σ.threads j).phase = .idle := by
      intro j hj
      refine Classical.byContradiction fun hn => hj ?_
      have := hi.holds j hn
      rw [hl] at this
      exact (Option.some.inj this).symm
    refine ⟨h1, fun j c' x hx => ?_, fun j c' cs' k' d' ht' => ?_, fun j c' cs' k' left' d' ht' => ?_⟩
    · have hx' : (c', x) ∈ (σ.set i ⟨c :: cs, .ready k, d⟩ j).done := hx
      refine ResultIn.mono (fun b hb => (h3 b).mpr (.inr hb)) (h.done j c' x ?_)
      by_cases e : j = i
      · subst e; rw [Sys.set_same] at hx'; rw [ht]; exact hx'
      · rw [Sys.set_other σ _ e] at hx'; exact hx'
    · have ht'' : σ.set i ⟨c :: cs, .ready k, d⟩ j = _ := ht'
      by_cases e : j = i
      · subst e; rw [Sys.set_same] at ht''; cases ht''; exact ⟨_, h2, rfl⟩
      · rw [Sys.set_other σ _ e] at ht''
        have := hother j e
        rw [ht''] at this; cases this
    · have ht'' : σ.set i ⟨c :: cs, .ready k, d⟩ j = _ := ht'
      by_cases e : j = i
      · subst e; rw [Sys.set_same] at ht''; cases ht''
      · rw [Sys.set_other σ _ e] at ht''
        have := hother j e
        rw [ht''] at this; cases this
  | @finish i c cs d k a ht ha =>
    obtain ⟨a', ha', he⟩ := h.ready i _ _ _ _ ht
    rw [ha] at ha'; cases ha'
    refine h.keep (fun c' x hx => ?_) (fun _ _ _ _ e => by cases e) (fun _ _ _ _ _ e => by cases e)
    rcases List.mem_cons.mp hx with h1 | h1
    · cases h1
      obtain ⟨c'', cs'', h4, h5, _⟩ := hi.call i (by rw [ht]; exact nofun)
      rw [ht] at h4; cases h4
      exact .inr (.inr ⟨h5, a, List.mem_of_getElem? ha, rfl, he⟩)
    · left; rw [ht]; exact h1

theorem Good.steps (hs : search.Correct) (hs' : search.Safe) {calls : ι → List Call} {n : Nat} {σ σ' : Sys ι}
    (hi : Inv calls σ) (h : Good search σ) (hst : Steps search n σ σ') : Good search σ' := by
  induction hst with
  | refl => exact h
  | tail h1 h2 ih => exact Good.step hs (hi.steps hs' h1) (ih hi h) h2

/-- C98: also with callers that make names, two finished calls of whatever threads share an allocation exactly if their
texts are equal, and `object` and `number` are static. -/
theorem C98_canonical (hs : search.Correct) (hs' : search.Safe) (calls : ι → List Call) {n : Nat} {σ : Sys ι}
    (h : Steps search n (Sys.init calls) σ) {i j : ι} {c c' : Call} {x x' : NameRef}
    (hx : (c, x) ∈ (σ.threads i).done) (hx' : (c', x') ∈ (σ.threads j).done) :
    (WellKnown c.text → x = .static c.text) ∧
    (¬ WellKnown c.text → ¬ WellKnown c'.text → (SameAlloc x x' ↔ c.text = c'.text)) := by
  have hg := Good.steps hs hs' (Inv.init calls) (Good.init calls) h
  constructor
  · intro hw
    rcases hg.done i c x hx with ⟨_, h1⟩ | ⟨hn, _⟩
    · exact h1
    · exact absurd hw hn
  · exact fun hw hw' => (hg.done i c x hx).same hg.table (hg.done j c' x' hx') hw hw'

/-! ## Running one thread alone -/

theorem drain_borrow {i : ι} {c : Call} {cs d} : ∀ (left : List (List Char)) (σ : Sys ι),
    σ.threads i = ⟨c :: cs, .borrowing left, d⟩ → σ.lock = some i → (∀ s ∈ left, s ∈ c.borrowing) →
    ((∃ s ∈ left, ¬ WellKnown s) ∧ ∃ m σ' s, Steps search m σ σ' ∧ SelfBlocked σ' i s) ∨
    ((∀ s ∈ left, WellKnown s) ∧ ∃ m σ', Steps search m σ σ' ∧ σ'.threads i = ⟨c :: cs, .borrowing [], d⟩ ∧
      σ'.lock = some i ∧ σ'.st = σ.st)
  | [], σ, ht, hl, _ => .inr ⟨nofun, 0, σ, .refl, ht, hl, rfl⟩
  | s :: left, σ, ht, hl, hsub => by
    by_cases hw : WellKnown s
    · cases hm : Name.mapToStatic s with
      | none => exact absurd hw (mapToStatic_none.mp hm)
      | some t =>
        have hst := Step.borrowStatic (search := search) ht hm
        rcases drain_borrow left ⟨σ.st, σ.lock, σ.set i ⟨c :: cs, .borrowing left, d⟩⟩ (Sys.set_same σ i _) hl (fun s hs => hsub s (List.mem_cons_of_mem _ hs)) with
          ⟨⟨s', h1, h2⟩, m, σ', s'', h3, h4⟩ | ⟨h1, m, σ', h3, h4, h5, h6⟩
        · exact .inl ⟨⟨s', List.mem_cons_of_mem _ h1, h2⟩, _, σ', s'', (Steps.tail .refl hst).append h3, h4⟩
        · exact .inr ⟨List.forall_mem_cons.mpr ⟨hw, h1⟩, _, σ', (Steps.tail .refl hst).append h3, h4, h5, h6⟩
    · exact .inl ⟨⟨s, List.mem_cons_self, hw⟩, 0, σ, s, .refl, hl, hw, c, cs, left, d,
        .inl ⟨ht, hsub s List.mem_cons_self⟩⟩

theorem drain_convert {i : ι} {c : Call} {cs d k} : ∀ (left : List (List Char)) (σ : Sys ι),
    σ.threads i = ⟨c :: cs, .converting k left, d⟩ → σ.lock = some i → (∀ s ∈ left, s ∈ c.converting) →
    ((∃ s ∈ left, ¬ WellKnown s) ∧ ∃ m σ' s, Steps search m σ σ' ∧ SelfBlocked σ' i s) ∨
    ((∀ s ∈ left, WellKnown s) ∧ ∃ m σ', Steps search m σ σ' ∧ σ'.threads i = ⟨c :: cs, .converting k [], d⟩ ∧
      σ'.lock = some i ∧ σ'.st = σ.st)
  | [], σ, ht, hl, _ => .inr ⟨nofun, 0, σ, .refl, ht, hl, rfl⟩
  | s :: left, σ, ht, hl, hsub => by
    by_cases hw : WellKnown s
    · cases hm : Name.mapToStatic s with
      | none => exact absurd hw (mapToStatic_none.mp hm)
      | some t =>
        have hst := Step.convertStatic (search := search) ht hm
        rcases drain_convert left ⟨σ.st, σ.lock, σ.set i ⟨c :: cs, .converting k left, d⟩⟩ (Sys.set_same σ i _) hl (fun s hs => hsub s (List.mem_cons_of_mem _ hs)) with
          ⟨⟨s', h1, h2⟩, m, σ', s'', h3, h4⟩ | ⟨h1, m, σ', h3, h4, h5, h6⟩
        · exact .inl ⟨⟨s', List.mem_cons_of_mem _ h1, h2⟩, _, σ', s'', (Steps.tail .refl hst).append h3, h4⟩
        · exact .inr ⟨List.forall_mem_cons.mpr ⟨hw, h1⟩, _, σ', (Steps.tail .refl hst).append h3, h4, h5, h6⟩
    · exact .inl ⟨⟨s, List.mem_cons_self, hw⟩, 0, σ, s, .refl, hl, hw, c, cs, left, d,
        .inr ⟨k, ht, hsub s List.mem_cons_self⟩⟩

/-- Nobody is inside a call, the thread has these calls left, and only texts from the list are in the table. -/
structure Solo (σ : Sys ι) (i : ι) (todo : List Call) (texts : List (List Char)) : Prop where
  lock : σ.lock = none
  thread : ∃ d, σ.threads i = ⟨todo, .idle, d⟩
  table : ∀ a ∈ σ.st.table, a.text ∈ texts

omit [DecidableEq ι] in
theorem Solo.mono {σ : Sys ι} {i todo texts} (h : Solo σ i todo texts) (s : List Char) :
    Solo σ i todo (s :: texts) := ⟨h.lock, h.thread, fun a ha => List.mem_cons_of_mem _ (h.table a ha)⟩

/-- The call stops the thread when it is made after calls of the texts. -/
def Stops (texts : List (List Char)) (c : Call) : Prop :=
  ¬ WellKnown c.text ∧ ((∃ s ∈ c.borrowing, ¬ WellKnown s) ∨ ((∃ s ∈ c.converting, ¬ WellKnown s) ∧ c.text ∉ texts))

theorem run_call (hs : search.Safe) {σ : Sys ι} {i : ι} {c : Call} {cs : List Call} {texts : List (List Char)}
    (h : Solo σ i (c :: cs) texts) :
    (∃ m σ' s, Steps search m σ σ' ∧ SelfBlocked σ' i s) ∨
    (¬ Stops texts c ∧ ∃ m σ', Steps search m σ σ' ∧ Solo σ' i cs (c.text :: texts)) := by
  obtain ⟨d, ht⟩ := h.thread
  cases hm : Name.mapToStatic c.text with
  | some t =>
    refine .inr ⟨fun hst => ?_, 1, _, .tail .refl (.static ht hm), h.lock, ⟨_, Sys.set_same σ i _⟩, h.mono _ |>.table⟩
    rw [mapToStatic_none.mpr hst.1] at hm; cases hm
  | none =>
    have h1 := Step.acquire (search := search) ht hm h.lock
    rcases drain_borrow (search := search) c.borrowing ⟨σ.st, some i, σ.set i ⟨c :: cs, .borrowing c.borrowing, d⟩⟩
        (Sys.set_same σ i _) rfl (fun _ h => h) with
      ⟨_, m, σ', s, h3, h4⟩ | ⟨hb, m, σ₁, h3, h4, h5, h6⟩
    · exact .inl ⟨_, σ', s, (Steps.tail .refl h1).append h3, h4⟩
    have h7 := (Steps.tail .refl h1).append h3
    have hst : σ₁.st = σ.st := h6
    have hsafe := hs (fun a => strCmp c.text a.text) σ₁.st.table
    cases hr : search (fun a => strCmp c.text a.text) σ₁.st.table with
    | oob => rw [hr] at hsafe; exact hsafe.elim
    | found k =>
      rw [hr] at hsafe
      obtain ⟨a, ha, he⟩ := hsafe
      have he := (strCmp_eq_iff _ _).mp he
      have h8 := Step.hit h4 hr
      have h9 := Step.finish (search := search) (σ := ⟨σ₁.st, σ₁.lock, σ₁.set i ⟨c :: cs, .ready k, d⟩⟩) (a := a)
        (Sys.set_same σ₁ i _) ha
      refine .inr ⟨?_, _, _, .tail (.tail h7 h8) h9, rfl, ⟨_, Sys.set_same _ i _⟩, ?_⟩
      · rintro ⟨_, ⟨s, h10, h11⟩ | ⟨_, h11⟩⟩
        · exact h11 (hb s h10)
        · rw [hst] at ha
          exact h11 (he ▸ h.table a (List.mem_of_getElem? ha))
      · intro b hb'
        have : b ∈ σ₁.st.table := hb'
        rw [hst] at this
        exact List.mem_cons_of_mem _ (h.table b this)
    | missing k =>
      rw [hr] at hsafe
      have h8 := Step.miss h4 hr
      rcases drain_convert (search := search) c.converting
          ⟨σ₁.st, σ₁.lock, σ₁.set i ⟨c :: cs, .converting k c.converting, d⟩⟩ (Sys.set_same σ₁ i _) h5 (fun _ h => h) with
        ⟨_, m', σ', s, h9, h10⟩ | ⟨hc, m', σ₂, h9, h10, h11, h12⟩
      · exact .inl ⟨_, σ', s, (Steps.tail h7 h8).append h9, h10⟩
      have hst2 : σ₂.st = σ₁.st := h12
      have hk : k ≤ σ₂.st.table.length := by rw [hst2]; exact hsafe
      have h13 := Step.insert (search := search) h10 hk
      have h14 := Step.finish (search := search) (σ := ⟨⟨σ₂.st.table.insertIdx k ⟨σ₂.st.next, c.text⟩, σ₂.st.next + 1⟩,
        σ₂.lock, σ₂.set i ⟨c :: cs, .ready k, d⟩⟩) (Sys.set_same σ₂ i _) (get_insertIdx ⟨σ₂.st.next, c.text⟩ _ _ hk)
      refine .inr ⟨?_, _, _, .tail (.tail ((Steps.tail h7 h8).append h9) h13) h14, rfl, ⟨_, Sys.set_same _ i _⟩, ?_⟩
      · rintro ⟨_, ⟨s, h15, h16⟩ | ⟨⟨s, h15, h16⟩, _⟩⟩
        · exact h16 (hb s h15)
        · exact h16 (hc s h15)
      · intro b hb'
        have hb'' : b ∈ σ₂.st.table.insertIdx k ⟨σ₂.st.next, c.text⟩ := hb'
        rw [insertIdx_eq _ _ _ hk] at hb''
        simp only [List.mem_append, List.mem_cons] at hb''
        have hold : ∀ b ∈ σ₂.st.table, b.text ∈ c.text :: texts := by
          intro b h17
          rw [hst2, hst] at h17
          exact List.mem_cons_of_mem _ (h.table b h17)
        rcases hb'' with h17 | rfl | h17
        · exact hold b (List.mem_of_mem_take h17)
        · exact List.mem_cons_self
        · exact hold b (List.mem_of_mem_drop h17)

theorem run_calls (hs : search.Safe) {i : ι} {c : Call} {post : List Call} : ∀ (pre : List Call) (σ : Sys ι)
    (texts : List (List Char)), Solo σ i (pre ++ c :: post) texts → Stops ((pre.map Call.text).reverse ++ texts) c →
    ∃ m σ' s, Steps search m σ σ' ∧ SelfBlocked σ' i s
  | [], σ, texts, h, hst => by
    rcases run_call (search := search) hs h with h1 | ⟨h1, _⟩
    · exact h1
    · exact absurd hst h1
  | c' :: pre, σ, texts, h, hst => by
    rcases run_call (search := search) hs h with h1 | ⟨_, m, σ', h2, h3⟩
    · exact h1
    · obtain ⟨m', σ'', s, h4, h5⟩ := run_calls hs pre σ' _ h3 (by simpa using hst)
      exact ⟨_, σ'', s, h2.append h4, h5⟩

/-- C98, exactly: some execution reaches a thread that waits for itself if and only if some thread has a call of a text
other than `object` and `number` whose `as_ref` makes a name other than these two, or whose `into` does and which no call
of the same text precedes in the thread. -/
theorem C98_exact (hs : search.Correct) (hs' : search.Safe) (calls : ι → List Call) :
    (∃ n σ i s, Steps search n (Sys.init calls) σ ∧ SelfBlocked σ i s) ↔
    ∃ i pre c post, calls i = pre ++ c :: post ∧ ¬ WellKnown c.text ∧
      ((∃ s ∈ c.borrowing, ¬ WellKnown s) ∨
       ((∃ s ∈ c.converting, ¬ WellKnown s) ∧ ∀ c' ∈ pre, c'.text ≠ c.text)) := by
  constructor
  · rintro ⟨n, σ, i, s, h, hl, hw, c, cs, left, d, hb⟩
    have hinv := (Inv.init calls).steps hs' h
    have hg := Good.steps hs hs' (Inv.init calls) (Good.init calls) h
    have hsplit := hinv.split i
    obtain ⟨c₁, cs₁, hc1, hw1, _⟩ := hinv.call i (hinv.busy i hl)
    rcases hb with ⟨ht, hm⟩ | ⟨k, ht, hm⟩
    · rw [ht] at hsplit hc1
      cases hc1
      exact ⟨i, _, c, cs, hsplit.symm, hw1, .inl ⟨s, hm, hw⟩⟩
    · have hd := hg.done i
      have hmiss := hg.miss i _ _ _ _ _ ht
      rw [ht] at hsplit hc1 hd
      cases hc1
      refine ⟨i, _, c, cs, hsplit.symm, hw1, .inr ⟨⟨s, hm, hw⟩, fun c' hc' he => ?_⟩⟩
      obtain ⟨⟨c'', x⟩, h1, rfl⟩ := List.mem_map.mp (List.mem_reverse.mp hc')
      rcases hd _ _ h1 with ⟨h2, _⟩ | ⟨_, a, ha, _, h3⟩
      · exact hw1 (he ▸ h2)
      · obtain ⟨j, hj⟩ := List.getElem?_of_mem ha
        have heq : strCmp c.text a.text = .eq := (strCmp_eq_iff _ _).mpr (by rw [h3]; exact he.symm)
        have h4 := hmiss.2 j a hj
        by_cases hjk : j < k
        · have : strCmp c.text a.text = _ := h4.1 hjk
          rw [heq] at this; cases this
        · have : strCmp c.text a.text = _ := h4.2 (by omega)
          rw [heq] at this; cases this
  · rintro ⟨i, pre, c, post, hc, hw, hb⟩
    have hsolo : Solo (Sys.init calls) i (pre ++ c :: post) [] :=
      ⟨rfl, ⟨[], by rw [← hc]; rfl⟩, by simp [Sys.init, Interner.init]⟩
    obtain ⟨m, σ, s, h1, h2⟩ := run_calls (search := search) hs' pre _ [] hsolo ⟨hw, by
      rcases hb with hb | ⟨hb, hp⟩
      · exact .inl hb
      · refine .inr ⟨hb, fun hm => ?_⟩
        rw [List.append_nil, List.mem_reverse] at hm
        obtain ⟨c', h3, h4⟩ := List.mem_map.mp hm
        exact hp c' h3 h4⟩
    exact ⟨m, σ, i, s, h1, h2⟩

/-- The same for the search of the standard library and a list `ids` of all threads: some thread can go on in all
reachable states with a call that has not returned, exactly if no thread has such a call. -/
theorem C98_exact_std (calls : ι → List Call) {ids : List ι} (hids : ∀ i, i ∈ ids) :
    (∀ n σ, Steps binarySearchBy n (Sys.init calls) σ → (∃ i, (σ.threads i).todo ≠ []) →
      ∃ σ', Step binarySearchBy σ σ') ↔
    ∀ i pre c post, calls i = pre ++ c :: post → ¬ WellKnown c.text →
      (∀ s ∈ c.borrowing, WellKnown s) ∧
      ((∀ c' ∈ pre, c'.text ≠ c.text) → ∀ s ∈ c.converting, WellKnown s) := by
  have hex := C98_exact (search := binarySearchBy) binarySearchBy_correct binarySearchBy_safe calls
  constructor
  · intro h
    have hno : ¬ ∃ n σ i s, Steps binarySearchBy n (Sys.init calls) σ ∧ SelfBlocked σ i s := by
      rintro ⟨n, σ, i, s, h1, hb⟩
      have hne : (σ.threads i).todo ≠ [] := by
        obtain ⟨_, _, c, cs, left, d, ⟨h2, _⟩ | ⟨k, h2, _⟩⟩ := hb <;> rw [h2] <;> simp
      -- go on as long as possible
      have hmax : ∀ k m σ', Steps binarySearchBy m σ σ' → σ'.cost ids = k → False := by
        intro k
        induction k using Nat.strongRecOn with
        | ind k ih =>
          intro m σ' h3 hk
          have hti := (C98_blocked binarySearchBy_safe calls h1 hb h3).2.1
          obtain ⟨σ'', h4⟩ := h _ σ' (h1.append h3) ⟨i, by rw [hti]; exact hne⟩
          exact ih _ (by rw [← hk]; exact h4.cost hids) _ σ'' (.tail h3 h4) rfl
      exact hmax _ 0 σ .refl rfl
    intro i pre c post hc hw
    constructor
    · intro s hs
      exact Classical.byContradiction fun hn => hno (hex.mpr ⟨i, pre, c, post, hc, hw, .inl ⟨s, hs, hn⟩⟩)
    · intro hp s hs
      exact Classical.byContradiction fun hn => hno (hex.mpr ⟨i, pre, c, post, hc, hw, .inr ⟨⟨s, hs, hn⟩, hp⟩⟩)
  · rintro h n σ hσ ⟨i, hi⟩
    refine Classical.byContradiction fun hno => ?_
    rcases C98_stuck binarySearchBy_safe calls hσ (fun σ' hst => hno ⟨σ', hst⟩) with h1 | ⟨j, s, h1⟩
    · exact hi (h1 i)
    · obtain ⟨i', pre, c, post, hc, hw, ⟨s', h2, h3⟩ | ⟨⟨s', h2, h3⟩, h4⟩⟩ := hex.mp ⟨n, σ, j, s, hσ, h1⟩
      · exact h3 ((h i' pre c post hc hw).1 s' h2)
      · exact h3 ((h i' pre c post hc hw).2 h4 s' h2)

/-- A conversion that makes a name is not called if its text is in the table already. -/
example : ¬ ∃ n σ i s, Steps binarySearchBy n (Sys.init fun _ : Unit => [.plain c!"a", ⟨c!"a", [], [c!"b"]⟩]) σ ∧
    SelfBlocked σ i s := by
  rw [C98_exact binarySearchBy_correct binarySearchBy_safe]
  rintro ⟨_, pre, c, post, h, _, h1⟩
  match pre, h with
  | [], h => cases h; rcases h1 with ⟨s, h2, _⟩ | ⟨⟨s, h2, _⟩, _⟩ <;> cases h2
  | [x], h =>
    cases h
    rcases h1 with ⟨s, h2, _⟩ | ⟨_, h2⟩
    · cases h2
    · exact h2 _ List.mem_cons_self rfl
  | x :: y :: zs, h => simp at h

/-- In the other order it is. -/
example : ∃ n σ i s, Steps binarySearchBy n (Sys.init fun _ : Unit => [⟨c!"a", [], [c!"b"]⟩, .plain c!"a"]) σ ∧
    SelfBlocked σ i s := by
  rw [C98_exact binarySearchBy_correct binarySearchBy_safe]
  exact ⟨(), [], _, _, rfl, by unfold WellKnown; decide, .inr ⟨⟨c!"b", by simp, by unfold WellKnown; decide⟩, nofun⟩⟩

end Pddl.Reentrant
