import Verif.ErrorCapture
/-
# Property C101: captured panics
-/

namespace Verif.Capture

/-! ## Specification -/

/-- The messages of the panics of a history. -/
def panics : List Op → List String
  | [] => []
  | .panic m :: h => m :: panics h
  | _ :: h => panics h

def isFormat (i : Nat) : Op → Bool
  | .format j _ => i == j
  | _ => false

/-- Operations that change the hook: a capture is made or goes out of scope. -/
def changes : Op → Bool
  | .new => true
  | .drop _ _ => true
  | _ => false

/-- The text of a report: the error alone if there was no panic, otherwise a heading and the messages on lines of their
own. -/
def text (err : String) : List String → String
  | [] => err
  | m :: ms => ms.foldl (fun t x => t ++ "\n" ++ x) (err ++ "\nPanic details:\n" ++ m)

/-- Capture `j` was made and did not go out of scope. -/
def Existing (h : List Op) (j : Nat) : Prop := j < h.count .new ∧ ∀ u, Op.drop j u ∉ h

/-- Reports and ends are those of captures that exist, as the language guarantees; no capture goes out of scope because
its thread unwinds. -/
def Valid (h : List Op) : Prop :=
  ∀ a o b, h = a ++ o :: b → match o with
    | .format j _ => Existing a j
    | .drop j u => Existing a j ∧ u = false
    | _ => True

/-- The part of a history after the last report of capture `i`. -/
def afterReport (i : Nat) (h : List Op) : List Op := (h.reverse.takeWhile (fun o => !isFormat i o)).reverse

/-! ## Proofs -/

theorem render_eq (err : String) (msgs : List String) : render err msgs = text err msgs := by
  cases msgs with
  | nil => rfl
  | cons m ms =>
    have h : ∀ (ms : List String) (a m : String), ms.foldl (fun t x => t ++ "\n" ++ x) (a ++ m) =
        a ++ "\n".intercalate (m :: ms) := by
      intro ms
      induction ms with
      | nil => intro a m; rw [String.intercalate_singleton]; rfl
      | cons x ms ih =>
        intro a m
        rw [String.intercalate_cons_cons, List.foldl_cons, ih, String.append_assoc, String.append_assoc, String.append_assoc]
    exact (h ms _ m).symm

theorem run_append (s : State) (a b : List Op) : run s (a ++ b) = run (run s a) b := by simp [run]

theorem panics_append (a b : List Op) : panics (a ++ b) = panics a ++ panics b := by
  induction a with
  | nil => rfl
  | cons o a ih => cases o <;> simp_all [panics]

theorem afterReport_snoc (i : Nat) (h : List Op) (o : Op) :
    afterReport i (h ++ [o]) = if isFormat i o then [] else afterReport i h ++ [o] := by
  unfold afterReport
  rw [List.reverse_append]
  cases e : isFormat i o <;> simp [e]

theorem snoc_induct {P : List Op → Prop} (h0 : P []) (h1 : ∀ h o, P h → P (h ++ [o])) (h : List Op) : P h := by
  suffices ∀ r : List Op, P r.reverse by simpa using this h.reverse
  intro r
  induction r with
  | nil => exact h0
  | cons o r ih => rw [List.reverse_cons]; exact h1 _ _ ih

theorem Valid.left {a b : List Op} (h : Valid (a ++ b)) : Valid a := by
  intro x o y e
  exact h x o (y ++ b) (by rw [e]; simp)

/-- What `Valid` asks of an operation after history `a`. -/
abbrev Possible (a : List Op) (o : Op) : Prop :=
  match o with
    | .format j _ => Existing a j
    | .drop j u => Existing a j ∧ u = false
    | _ => True

theorem valid_nil : Valid [] := fun a _ _ e => by cases a <;> contradiction

theorem Valid.snoc {h : List Op} (hv : Valid h) (o : Op) (ho : Possible h o) : Valid (h ++ [o]) := by
  intro a x b e
  rcases List.eq_nil_or_concat b with rfl | ⟨b', y, rfl⟩
  · obtain ⟨rfl, e2⟩ := List.append_inj' e rfl
    obtain rfl := List.singleton_inj.mp e2
    exact ho
  · have : h ++ [o] = (a ++ x :: b') ++ [y] := by rw [e]; simp
    obtain ⟨e1, -⟩ := List.append_inj' this rfl
    exact hv a x b' e1

/-! What each operation does to what can be observed. -/

theorem new_live (s : State) (h : s.aborted = false) (j : Nat) :
    (step s .new).live j = if j = s.caps.length then true else s.live j := by
  simp only [step, h, State.live, Bool.false_eq_true, if_false, List.getElem?_append]
  grind

theorem new_queue (s : State) (h : s.aborted = false) (j : Nat) :
    (step s .new).queue j = if j = s.caps.length then [] else s.queue j := by
  simp only [step, h, State.queue, Bool.false_eq_true, if_false, List.getElem?_append]
  grind

theorem panic_live (s : State) (m : String) (j : Nat) : (step s (.panic m)).live j = s.live j := by
  unfold step
  split
  · rfl
  · dsimp only
    split
    · rfl
    · simp only [State.live, List.getElem?_modify]
      grind

theorem panic_queue (s : State) (h : s.aborted = false) (m : String) (j : Nat) (hj : j < s.caps.length) :
    (step s (.panic m)).queue j = if s.hook = .send j then s.queue j ++ [m] else s.queue j := by
  simp only [step, h, Bool.false_eq_true, if_false]
  split
  · rename_i e; simp [e]
  · rename_i i e
    simp only [e, State.queue, List.getElem?_modify]
    by_cases hi : i = j
    · subst hi; simp [hj]
    · simp [hi]

theorem format_live (s : State) (i : Nat) (e : String) (j : Nat) : (step s (.format i e)).live j = s.live j := by
  unfold step
  split
  · rfl
  · dsimp only
    split
    · simp only [State.live, List.getElem?_modify]
      grind
    · rfl

theorem format_queue (s : State) (h : s.aborted = false) (i : Nat) (e : String) (j : Nat) :
    (step s (.format i e)).queue j = if s.live i = true ∧ i = j then [] else s.queue j := by
  simp only [step, h, Bool.false_eq_true, if_false]
  by_cases hl : s.live i = true
  · simp only [hl, if_true, true_and, State.queue, List.getElem?_modify]
    by_cases hi : i = j
    · subst hi; cases s.caps[i]? <;> simp
    · simp [hi]
  · simp [hl]

theorem drop_live (s : State) (h : s.aborted = false) (i : Nat) (hl : s.live i = true) (j : Nat) :
    (step s (.drop i false)).live j = if i = j then false else s.live j := by
  simp only [step, h, hl, Bool.false_eq_true, if_false, if_true]
  simp only [State.live, List.getElem?_modify]
  by_cases hi : i = j
  · subst hi; cases s.caps[i]? <;> simp
  · simp [hi]

theorem drop_queue (s : State) (i : Nat) (u : Bool) (j : Nat) : (step s (.drop i u)).queue j = s.queue j := by
  unfold step
  split
  · rfl
  · dsimp only
    split
    · split
      · rfl
      · simp only [State.queue, List.getElem?_modify]
        grind
    · rfl

theorem step_length (s : State) (h : s.aborted = false) (o : Op) :
    (step s o).caps.length = s.caps.length + (if o = .new then 1 else 0) := by
  simp only [step, h, Bool.false_eq_true, if_false]
  cases o <;> simp
  all_goals (repeat' split) <;> simp

theorem live_lt {s : State} {j : Nat} (h : s.live j = true) : j < s.caps.length := by
  apply Classical.byContradiction
  intro hn
  rw [State.live, List.getElem?_eq_none (by omega)] at h
  contradiction

/-- What the state says about the history. -/
theorem track (h : List Op) (hv : Valid h) :
    (run init h).aborted = false ∧ (run init h).caps.length = h.count .new ∧
    ∀ j, (run init h).live j = true ↔ Existing h j := by
  revert hv
  refine snoc_induct (P := fun h => Valid h → (run init h).aborted = false ∧ (run init h).caps.length = h.count .new ∧
    ∀ j, (run init h).live j = true ↔ Existing h j) ?_ ?_ h
  · intro _
    simp [run, init, State.live, Existing]
  · intro h o ih hv
    obtain ⟨h1, h2, h3⟩ := ih hv.left
    have ho := hv h o [] rfl
    have fresh : ∀ u, Op.drop (h.count .new) u ∉ h := by
      intro u hm
      obtain ⟨a, b, e⟩ := List.append_of_mem hm
      have := (hv.left a _ b e).1.1
      rw [e, List.count_append] at this
      omega
    rw [run_append]
    show (step (run init h) o).aborted = false ∧ (step (run init h) o).caps.length = _ ∧
      ∀ j, (step (run init h) o).live j = true ↔ _
    generalize run init h = s at *
    have hcount : (h ++ [o]).count .new = h.count .new + (if o = .new then 1 else 0) := by
      rw [List.count_append, List.count_singleton]; simp
    refine ⟨?_, by rw [step_length s h1, h2, hcount], fun j => ?_⟩
    · cases o with
      | drop i u =>
        obtain ⟨he, rfl⟩ := ho
        simp [step, h1, (h3 i).mpr he]
      | _ => simp only [step, h1]; simp; repeat' split
             all_goals simp [h1]
    · cases o with
      | new =>
        rw [new_live s h1, h2]
        unfold Existing
        rw [hcount]
        by_cases hj : j = h.count .new
        · subst hj; simp [fresh]
        · have := h3 j
          simp only [hj, if_false, this, Existing, List.mem_append, List.mem_singleton]
          simp
          omega
      | panic m => rw [panic_live, h3]; unfold Existing; rw [hcount]; simp
      | format i e => rw [format_live, h3]; unfold Existing; rw [hcount]; simp
      | drop i u =>
        obtain ⟨he, rfl⟩ := ho
        rw [drop_live s h1 i ((h3 i).mpr he)]
        unfold Existing
        rw [hcount]
        by_cases hj : i = j
        · subst hj; simp
        · have := h3 j
          simp only [hj, if_false, this, Existing]
          grind

/-- While nobody changes the hook after `new`. -/
structure Mid (i : Nat) (mid : List Op) (t : State) : Prop where
  aborted : t.aborted = false
  hook : t.hook = .send i
  live : t.live i = true
  queue : t.queue i = panics (afterReport i mid)

theorem mid_state {s : State} (hs : s.aborted = false) (mid : List Op) (hmid : ∀ o ∈ mid, changes o = false) :
    Mid s.caps.length mid (run (step s .new) mid) := by
  revert hmid
  refine snoc_induct (P := fun mid => (∀ o ∈ mid, changes o = false) → Mid s.caps.length mid (run (step s .new) mid))
    ?_ ?_ mid
  · intro _
    constructor <;> simp [run, step, hs, State.live, State.queue, afterReport, panics]
  · intro mid o ih hmid
    obtain ⟨h1, h2, h3, h4⟩ := ih (fun o ho => hmid o (List.mem_append_left _ ho))
    have ho := hmid o (by simp)
    rw [run_append]
    show Mid _ _ (step (run (step s .new) mid) o)
    generalize run (step s .new) mid = t at *
    cases o with
    | new => contradiction
    | drop => contradiction
    | panic m =>
      refine ⟨by simp [step, h1, h2], by simp [step, h1, h2], by rw [panic_live, h3], ?_⟩
      rw [panic_queue t h1 m _ (live_lt h3), afterReport_snoc, if_pos h2, h4]
      simp [isFormat, panics_append, panics]
    | format j e =>
      refine ⟨?_, ?_, by rw [format_live, h3], ?_⟩
      · simp only [step, h1]; simp; split <;> simp [h1]
      · simp only [step, h1]; simp; split <;> simp [h2]
      · rw [format_queue t h1, afterReport_snoc]
        by_cases hj : s.caps.length = j
        · subst hj; simp [h3, isFormat, panics]
        · have : ¬ j = s.caps.length := fun x => hj x.symm
          simp [this, hj, isFormat, panics_append, panics, h4]

/-- Once the hook of a capture is gone, its channel only loses messages. -/
theorem rest_state {i : Nat} {base : List Op} (hh : (run init base).hook ≠ .send i) (hi : i < base.count .new)
    (rest : List Op) (hv : Valid (base ++ rest)) :
    (run init (base ++ rest)).hook ≠ .send i ∧
    (run init (base ++ rest)).queue i = if rest.any (isFormat i) then [] else (run init base).queue i := by
  revert hv
  refine snoc_induct (P := fun rest => Valid (base ++ rest) → (run init (base ++ rest)).hook ≠ .send i ∧
    (run init (base ++ rest)).queue i = if rest.any (isFormat i) then [] else (run init base).queue i) ?_ ?_ rest
  · intro _; simpa using hh
  · intro rest o ih hv
    rw [← List.append_assoc] at hv ⊢
    obtain ⟨g1, g2⟩ := ih hv.left
    obtain ⟨h1, h2, h3⟩ := track _ hv.left
    have ho := hv _ o [] rfl
    rw [run_append]
    show (step (run init (base ++ rest)) o).hook ≠ _ ∧ (step (run init (base ++ rest)) o).queue i = _
    have hlt : i < (run init (base ++ rest)).caps.length := by rw [h2, List.count_append]; omega
    generalize run init (base ++ rest) = s at *
    rw [List.any_append]
    cases o with
    | new =>
      refine ⟨?_, ?_⟩
      · simp only [step, h1]; simp; omega
      · rw [new_queue s h1, if_neg (by omega), g2]; simp [isFormat]
    | panic m =>
      refine ⟨?_, ?_⟩
      · simp only [step, h1]; simp; split <;> simp_all
      · rw [panic_queue s h1 m i hlt, if_neg g1, g2]; simp [isFormat]
    | format j e =>
      refine ⟨?_, ?_⟩
      · simp only [step, h1]; simp; split <;> simp_all
      · rw [format_queue s h1, g2]
        by_cases hj : j = i
        · subst hj; simp [isFormat, (h3 j).mpr ho]
        · have : ¬ i = j := fun x => hj x.symm
          simp [isFormat, hj, this]
    | drop j u =>
      refine ⟨?_, ?_⟩
      · simp only [step, h1]; simp; split
        · split <;> simp_all
        · exact g1
      · rw [drop_queue, g2]; simp [isFormat]

/-! ## The property -/

/-- **C101 (what a report says).** After any history: the report of a capture is the given error, followed by the messages
of exactly the panics, in order, that happened after the capture was made and after its last report, but before
the first time another capture was made or any capture went out of scope. -/
theorem c101_report (pre mid rest : List Op) (err : String) (hv : Valid (pre ++ .new :: (mid ++ rest)))
    (hmid : ∀ o ∈ mid, changes o = false) (hrest : ∀ o, rest.head? = some o → changes o = true)
    (hl : Existing (pre ++ .new :: (mid ++ rest)) (pre.count .new)) :
    report (pre ++ .new :: (mid ++ rest)) (pre.count .new) err =
      some (text err (if rest.any (isFormat (pre.count .new)) then [] else panics (afterReport (pre.count .new) mid))) := by
  obtain ⟨t1, t2, t3⟩ := track _ hv
  have e0 : pre ++ .new :: (mid ++ rest) = (pre ++ .new :: mid) ++ rest := by simp
  have hp : Valid pre := hv.left
  obtain ⟨p1, p2, -⟩ := track pre hp
  have hm := mid_state p1 mid hmid
  have em : run init (pre ++ .new :: mid) = run (step (run init pre) .new) mid := by rw [run_append]; rfl
  rw [p2, ← em] at hm
  simp only [report, t1, (t3 _).mpr hl, and_self, if_true]
  rw [render_eq]
  congr 2
  cases rest with
  | nil => simpa using hm.queue
  | cons x rest =>
    have hx := hrest x rfl
    have e1 : pre ++ .new :: (mid ++ x :: rest) = ((pre ++ .new :: mid) ++ [x]) ++ rest := by simp
    rw [e1] at hv ⊢
    have hvx := hv.left
    obtain ⟨h1, h2, h3⟩ := track _ hvx.left
    have ho := hvx _ x [] rfl
    have hnf : isFormat (pre.count .new) x = false := by cases x <;> first | rfl | contradiction
    have hs : run init ((pre ++ .new :: mid) ++ [x]) = step (run init (pre ++ .new :: mid)) x := by rw [run_append]; rfl
    have hq : (run init ((pre ++ .new :: mid) ++ [x])).queue (pre.count .new) = panics (afterReport (pre.count .new) mid) ∧
        (run init ((pre ++ .new :: mid) ++ [x])).hook ≠ .send (pre.count .new) := by
      rw [hs]
      have hlt := live_lt hm.live
      cases x with
      | new =>
        refine ⟨by rw [new_queue _ h1, if_neg (by omega), hm.queue], ?_⟩
        simp only [step, h1]; simp; omega
      | drop j u =>
        obtain ⟨he, rfl⟩ := ho
        refine ⟨by rw [drop_queue, hm.queue], ?_⟩
        simp [step, h1, (h3 j).mpr he]
      | panic => contradiction
      | format => contradiction
    have hcnt : pre.count .new < ((pre ++ .new :: mid) ++ [x]).count .new := by
      rw [List.count_append, List.count_append, List.count_cons]; simp; omega
    have := (rest_state hq.2 hcnt rest hv).2
    rw [this, hq.1, List.any_cons, hnf, Bool.false_or]

/-- **C101 (a capture by itself).** Until another capture is made or one goes out of scope, the report has every panic
since the capture was made and since its last report. -/
theorem c101_alone_partial (pre mid : List Op) (err : String) (hv : Valid (pre ++ .new :: mid))
    (hmid : ∀ o ∈ mid, changes o = false) :
    report (pre ++ .new :: mid) (pre.count .new) err = some (text err (panics (afterReport (pre.count .new) mid))) := by
  have h := c101_report pre mid [] err (by simpa using hv) hmid (by simp)
  simp only [List.append_nil, List.any_nil, Bool.false_eq_true, if_false] at h
  apply h
  obtain ⟨p1, p2, -⟩ := track pre hv.left
  have hm := mid_state p1 mid hmid
  rw [p2, show run (step (run init pre) .new) mid = run init (pre ++ .new :: mid) by rw [run_append]; rfl] at hm
  exact ((track _ hv).2.2 _).mp hm.live

/-- **C101 (not in general).** A report may lack a panic that happened while its capture existed and was the last one
made: an older one went out of scope. -/
theorem c101_false : ¬ ∀ (pre mid : List Op) (err : String), Valid (pre ++ .new :: mid) →
    Existing (pre ++ .new :: mid) (pre.count .new) → (∀ o ∈ mid, o ≠ .new) →
    report (pre ++ .new :: mid) (pre.count .new) err = some (text err (panics (afterReport (pre.count .new) mid))) := by
  intro h
  have hv : Valid ([.new] ++ .new :: [.drop 0 false, .panic "x"]) :=
    (((valid_nil.snoc .new trivial).snoc .new trivial).snoc (.drop 0 false) ⟨⟨by decide, by decide⟩, rfl⟩).snoc
      (.panic "x") trivial
  exact absurd (h [.new] [.drop 0 false, .panic "x"] "e" hv ⟨by decide, by decide⟩ (by decide)) (by decide)

/-- **C101 (unwinding).** If a thread panics while a capture is on its stack, the process ends: nothing is reported any
more, by any capture. -/
theorem c101_abort (h rest : List Op) (j i : Nat) (err : String) (hv : Valid h) (hl : Existing h j) :
    report (h ++ .drop j true :: rest) i err = none := by
  obtain ⟨h1, -, h3⟩ := track h hv
  have stay : ∀ (rest : List Op) (s : State), s.aborted = true → (run s rest).aborted = true := by
    intro rest
    induction rest with
    | nil => exact fun s e => e
    | cons o h ih => intro s e; exact ih _ (by simp [step, e])
  have : (run init (h ++ .drop j true :: rest)).aborted = true := by
    rw [run_append]
    exact stay rest (step (run init h) (.drop j true)) (by simp [step, h1, (h3 j).mpr hl])
  simp [report, this]

/-- The messages in the reports of a history, in the order of the reports. -/
def reported : State → List Op → List String
  | _, [] => []
  | s, .format i e :: h =>
    (if s.aborted = false ∧ s.live i = true then s.queue i else []) ++ reported (step s (.format i e)) h
  | s, o :: h => reported (step s o) h

/-- The messages that wait in all channels. -/
def State.waiting (s : State) : List String := (s.caps.map Cap.queue).flatten

theorem modify_count (m : String) (f : Cap → Cap) (cs : List Cap) (i : Nat) (c : Cap) (hc : cs[i]? = some c) :
    ((cs.modify i f).map Cap.queue).flatten.count m + c.queue.count m =
      (cs.map Cap.queue).flatten.count m + (f c).queue.count m := by
  induction cs generalizing i with
  | nil => simp at hc
  | cons d cs ih =>
    cases i with
    | zero =>
      simp at hc
      subst hc
      simp [List.count_append]
      omega
    | succ i =>
      have := ih i (by simpa using hc)
      simp only [List.modify_succ_cons, List.map_cons, List.flatten_cons, List.count_append]
      omega

theorem modify_none (f : Cap → Cap) (cs : List Cap) (i : Nat) (hc : cs[i]? = none) : cs.modify i f = cs := by
  apply List.ext_getElem?
  intro j
  rw [List.getElem?_modify]
  by_cases hj : i = j
  · subst hj; simp [hc]
  · simp [hj]

/-- **C101 (once).** No panic is reported twice, by one capture or by two: in every history each message is in the reports
at most as often as there were panics with it. -/
theorem c101_once (h : List Op) (m : String) : (reported init h).count m ≤ (panics h).count m := by
  suffices ∀ (h : List Op) (s : State), (reported s h).count m ≤ s.waiting.count m + (panics h).count m by
    simpa [init, State.waiting] using this h init
  intro h
  induction h with
  | nil => intro s; simp [reported]
  | cons o h ih =>
    intro s
    cases o with
    | new =>
      have := ih (step s .new)
      have e : (step s .new).waiting = s.waiting := by
        unfold step; split <;> simp [State.waiting]
      rw [e] at this
      exact this
    | panic x =>
      have := ih (step s (.panic x))
      have e : (step s (.panic x)).waiting.count m ≤ s.waiting.count m + [x].count m := by
        unfold step
        split
        · omega
        · dsimp only
          split
          · omega
          · rename_i i _
            unfold State.waiting
            dsimp only
            cases hc : s.caps[i]? with
            | none => rw [modify_none _ _ _ hc]; omega
            | some c =>
              have := modify_count m (fun c => { c with queue := c.queue ++ [x] }) s.caps i c hc
              simp only [List.count_append] at this
              omega
      have e2 : (panics (.panic x :: h)).count m = [x].count m + (panics h).count m := by
        rw [panics, List.count_cons, List.count_singleton]; omega
      show (reported (step s (.panic x)) h).count m ≤ _
      omega
    | format i e =>
      have := ih (step s (.format i e))
      show ((if s.aborted = false ∧ s.live i = true then s.queue i else []) ++ reported (step s (.format i e)) h).count m ≤
        _ + (panics h).count m
      rw [List.count_append]
      by_cases hc : s.aborted = false ∧ s.live i = true
      · rw [if_pos hc]
        have e2 : (step s (.format i e)).waiting.count m + (s.queue i).count m = s.waiting.count m := by
          simp only [step, hc.1, hc.2, Bool.false_eq_true, if_false, if_true, State.waiting]
          have hlt := live_lt hc.2
          have := modify_count m (fun c => { c with queue := [] }) s.caps i s.caps[i] (by simp [hlt])
          simp only [State.queue, List.getElem?_eq_getElem hlt, Option.map_some, Option.getD_some]
          simpa using this
        omega
      · rw [if_neg hc]
        have e2 : step s (.format i e) = s := by
          unfold step
          split
          · rfl
          · dsimp only
            split
            · rename_i a b; exact (hc ⟨by simpa using a, b⟩).elim
            · rfl
        rw [e2] at this ⊢
        simpa using this
    | drop i u =>
      have := ih (step s (.drop i u))
      have e : (step s (.drop i u)).waiting.count m = s.waiting.count m := by
        unfold step
        split
        · rfl
        · dsimp only
          split
          · split
            · rfl
            · unfold State.waiting
              dsimp only
              cases hc : s.caps[i]? with
              | none => rw [modify_none _ _ _ hc]
              | some c =>
                have := modify_count m (fun c => { c with live := false }) s.caps i c hc
                dsimp only at this
                omega
          · rfl
      rw [e] at this
      exact this

/-! ### Witnesses -/

/-- C101: a history with two captures; both report their own panics, the first only until the second was made. -/
example :
    Valid ([.panic "a", .new, .panic "b", .format 0 "e", .panic "c", .new, .panic "d", .panic "f"] ++ []) ∧
    report [.panic "a", .new, .panic "b", .format 0 "e", .panic "c", .new, .panic "d", .panic "f"] 0 "e" =
      some "e\nPanic details:\nc" ∧
    report [.panic "a", .new, .panic "b", .format 0 "e", .panic "c", .new, .panic "d", .panic "f"] 1 "e" =
      some "e\nPanic details:\nd\nf" := by
  refine ⟨?_, by decide, by decide⟩
  exact ((((((((valid_nil.snoc (.panic "a") trivial).snoc .new trivial).snoc (.panic "b") trivial).snoc (.format 0 "e")
    ⟨by decide, by decide⟩).snoc (.panic "c") trivial).snoc .new trivial).snoc (.panic "d") trivial).snoc (.panic "f")
    trivial)

/-- C101: the reports of that history. -/
example : reported init [.panic "a", .new, .panic "b", .format 0 "e", .panic "c", .new, .panic "d", .format 1 "e",
    .format 0 "e", .format 0 "e"] = ["b", "d", "c"] := by decide

end Verif.Capture
