import Verif.SupportModel
import Verif.AllocProps
import Mathlib.Data.List.Induction
/-!
# C141 – C144: exception objects, running a module, the platform's data, the translator's log
-/
namespace Verif.Support

/-! ## C141 -/

/-- Specification: `InnermostOf h p r`: following inner exceptions from the object `p` ends at the object `r`. -/
inductive InnermostOf (h : List ExcObj) : Nat → Nat → Prop
  | self {p : Nat} {o : ExcObj} (e : h[p]? = some o) (i : o.inner = none) : InnermostOf h p p
  | step {p q r : Nat} {o : ExcObj} (e : h[p]? = some o) (i : o.inner = some q) (n : InnermostOf h q r) : InnermostOf h p r

/-- What the caller passed to the constructor. -/
def Ctor.msg : Ctor → Option WStr
  | .plain => none
  | .message m => m
  | .full m _ => m
def Ctor.inn : Ctor → Option Nat
  | .full _ i => i
  | _ => none

/-- An inner exception exists before the exception it is given to. -/
def Earlier (cs : List Ctor) : Prop := ∀ (p : Nat) (c : Ctor) (q : Nat), cs[p]? = some c → c.inn = some q → q < p

theorem build_get (cs : List Ctor) (p : Nat) : (build cs)[p]? = cs[p]?.map construct := by simp [build]

/-- **C141**, `Message` and `InnerException`: what was given to the constructor, however many exceptions are made later. -/
theorem C141_accessors (cs later : List Ctor) (p : Nat) (c : Ctor) (h : cs[p]? = some c) :
    getMessage (build (cs ++ later)) p = .ok c.msg ∧ getInner (build (cs ++ later)) p = .ok c.inn := by
  have hp : p < cs.length := by
    rcases Nat.lt_or_ge p cs.length with l | l
    · exact l
    · rw [List.getElem?_eq_none l] at h; cases h
  have e : (build (cs ++ later))[p]? = some (construct c) := by
    rw [build_get, List.getElem?_append_left hp, h]; rfl
  unfold getMessage getInner
  rw [e]
  cases c <;> exact ⟨rfl, rfl⟩

/-- **C141**: every exception has exactly one innermost exception. -/
theorem C141_innermost (cs : List Ctor) (h : Earlier cs) : ∀ (p : Nat), p < cs.length → ∃ r, InnermostOf (build cs) p r ∧ ∀ r', InnermostOf (build cs) p r' → r' = r := by
  intro p
  induction p using Nat.strongRecOn with
  | _ p ih =>
    intro hp
    have e : (build cs)[p]? = some (construct cs[p]) := by rw [build_get, List.getElem?_eq_getElem hp]; rfl
    cases hi : (construct cs[p]).inner with
    | none =>
      refine ⟨p, .self e hi, ?_⟩
      intro r' hr
      cases hr with
      | self _ _ => rfl
      | step e2 i2 _ => rw [e] at e2; cases e2; rw [hi] at i2; cases i2
    | some q =>
      have hc : (cs[p]).inn = some q := by rw [← hi]; cases cs[p] <;> rfl
      have hq := h p cs[p] q (List.getElem?_eq_getElem hp) hc
      obtain ⟨r, h1, h2⟩ := ih q hq (by omega)
      refine ⟨r, .step e hi h1, ?_⟩
      intro r' hr
      cases hr with
      | self e2 i2 => rw [e] at e2; cases e2; rw [hi] at i2; cases i2
      | step e2 i2 n2 => rw [e] at e2; cases e2; rw [hi] at i2; cases i2; exact h2 _ n2

/-- The sequence `e0 = new Exception(null); e1 = new Exception("a", e0); e2 = new Exception("b", e1)`. -/
def exThree : List Ctor := [.message none, .full (some (w "a")) (some 0), .full (some (w "b")) (some 1)]

example : Earlier exThree := by
  intro p c q h1 h2
  match p, h1 with
  | 0, h1 => cases h1; cases h2
  | 1, h1 => cases h1; cases h2; decide
  | 2, h1 => cases h1; cases h2; decide
  | n + 3, h1 => cases h1

example : InnermostOf (build exThree) 2 0 := .step rfl rfl (.step rfl rfl (.self rfl rfl))

theorem innermost_end {h : List ExcObj} {p r : Nat} (hr : InnermostOf h p r) : getInner h r = .ok none := by
  induction hr with
  | self e i => unfold getInner; rw [e]; simp only [i]
  | step _ _ _ ih => exact ih

/-- **C141**, `GetBaseException()` (partial: it is the innermost exception exactly when there is one inner exception and that one has none itself). -/
theorem C141_base_partial (cs : List Ctor) (p r : Nat) (hr : InnermostOf (build cs) p r) :
    getBase (build cs) p = .ok (some r) ↔ ∃ q, getInner (build cs) p = .ok (some q) ∧ getInner (build cs) q = .ok none := by
  constructor
  · intro h; exact ⟨r, h, innermost_end hr⟩
  · rintro ⟨q, hq, h⟩
    cases hr with
    | self e i => unfold getInner at hq; rw [e] at hq; simp only [Res.ok.injEq] at hq; rw [i] at hq; cases hq
    | step e i n =>
      have hq' := hq
      unfold getInner at hq'
      rw [e] at hq'
      simp only [Res.ok.injEq] at hq'
      rw [i] at hq'
      cases hq'
      cases n with
      | self _ _ => exact hq
      | step e2 i2 _ => unfold getInner at h; rw [e2] at h; simp only [Res.ok.injEq] at h; rw [i2] at h; cases h

example : InnermostOf (build exThree) 1 0 ∧ getBase (build exThree) 1 = .ok (some 0) := ⟨.step rfl rfl (.self rfl rfl), by decide +kernel⟩

/-- **C141**, the rest refuted: an exception without inner exception is its own base exception in .NET, here there is none; with two levels the result is the exception in the middle. -/
theorem C141_base_refuted : (∀ cs p, InnermostOf (build cs) p p → getBase (build cs) p = .ok none) ∧
    (InnermostOf (build exThree) 2 0 ∧ getBase (build exThree) 2 = .ok (some 1)) :=
  ⟨fun _ _ h => innermost_end h, .step rfl rfl (.step rfl rfl (.self rfl rfl)), by decide +kernel⟩

example : InnermostOf (build exThree) 0 0 := .self rfl rfl

/-- **C141**, refuted for `Message`: .NET never returns null (an exception made without a message says so in words), here `new Exception()` and `new Exception(null)` have none. -/
theorem C141_message_refuted (cs : List Ctor) (p : Nat) (h : cs[p]? = some .plain ∨ cs[p]? = some (.message none)) : getMessage (build cs) p = .ok none := by
  rcases h with h | h
  · have := (C141_accessors cs [] p _ h).1; rwa [List.append_nil] at this
  · have := (C141_accessors cs [] p _ h).1; rwa [List.append_nil] at this

example : exThree[0]? = some (.message none) := rfl

/-! ## C142 -/

/-- Everything that should be on the console: one line for each message, the message of an exception that gets out last. -/
def allMessages (b : Behaviour) : List (Option WStr) :=
  b.sends ++ (match b.ending with
    | .throws m => [m]
    | _ => [])

/-- A message that can be printed as it is: it exists, has no NUL and can be represented in the locale. -/
def Printable (can : Nat → Bool) (m : Option WStr) : Prop := ∃ t, m = some t ∧ 0 ∉ t ∧ ∀ c ∈ t, can c = true

theorem takeWhile_len {α : Type} (f : α → Bool) : ∀ l : List α, (l.takeWhile f).length ≤ l.length
  | [] => Nat.le_refl _
  | a :: l => by
    rw [List.takeWhile_cons]
    split
    · exact Nat.succ_le_succ (takeWhile_len f l)
    · exact Nat.zero_le _

theorem takeWhile_self {t : WStr} (h : 0 ∉ t) : t.takeWhile (· != 0) = t := by
  induction t with
  | nil => rfl
  | cons a t ih =>
    rw [List.takeWhile_cons, if_pos (by simp only [bne_iff_ne, ne_eq]; intro e; exact h (by rw [e]; exact List.mem_cons_self ..)), ih (fun m => h (List.mem_cons_of_mem _ m))]

theorem takeWhile_nonul (t : WStr) : 0 ∉ t.takeWhile (· != 0) := by
  induction t with
  | nil => simp
  | cons a t ih =>
    rw [List.takeWhile_cons]
    split
    · rename_i c
      intro m
      rcases List.mem_cons.1 m with m | m
      · subst m; simp at c
      · exact ih m
    · simp

theorem send_some (can : Nat → Bool) (o : List WStr) (t : WStr) : send can o (some t) =
    if (t.takeWhile (· != 0)).all can then .ok (o ++ [t.takeWhile (· != 0)]) else .ok o := rfl

theorem sendAll_cons (can : Nat → Bool) (o : List WStr) (m : Option WStr) (ms : List (Option WStr)) : sendAll can o (m :: ms) = (send can o m >>= fun o => sendAll can o ms) := rfl

theorem send_printable {can : Nat → Bool} {t : WStr} {o : List WStr} (h0 : 0 ∉ t) (h1 : ∀ c ∈ t, can c = true) : send can o (some t) = .ok (o ++ [t]) := by
  rw [send_some, takeWhile_self h0, if_pos (List.all_eq_true.2 h1)]

/-- All lines of a list of messages, or a reason why not. -/
theorem sendAll_iff (can : Nat → Bool) (ms : List (Option WStr)) : ∀ out : List WStr,
    (sendAll can out ms = .ok (out ++ ms.filterMap id)) ↔ ∀ m ∈ ms, Printable can m := by
  have short : ∀ (ms : List (Option WStr)) (out o : List WStr), sendAll can out ms = .ok o → o.length ≤ out.length + ms.length ∧ (ms.filterMap id).length = ms.length := by
    intro ms
    induction ms with
    | nil => intro out o h; cases h; exact ⟨Nat.le_refl _, rfl⟩
    | cons m ms ih =>
      intro out o h
      cases m with
      | none => cases h
      | some t =>
        rw [sendAll_cons, send_some] at h
        by_cases c : ((t.takeWhile (· != 0)).all can) = true
        · rw [if_pos c, Res.bind_ok] at h
          obtain ⟨h1, h3⟩ := ih _ _ h
          simp only [List.length_append, List.length_cons, List.length_nil] at h1
          refine ⟨by simp only [List.length_cons]; omega, ?_⟩
          simp only [List.filterMap_cons, id, List.length_cons, h3]
        · rw [if_neg c, Res.bind_ok] at h
          obtain ⟨h1, h3⟩ := ih _ _ h
          refine ⟨by simp only [List.length_cons]; omega, ?_⟩
          simp only [List.filterMap_cons, id, List.length_cons, h3]
  have pre : ∀ (ms : List (Option WStr)) (out o : List WStr), sendAll can out ms = .ok o → ∃ r, o = out ++ r := by
    intro ms
    induction ms with
    | nil => intro out o h; cases h; exact ⟨[], by simp⟩
    | cons m ms ih =>
      intro out o h
      cases m with
      | none => cases h
      | some t =>
        rw [sendAll_cons, send_some] at h
        by_cases c : ((t.takeWhile (· != 0)).all can) = true
        · rw [if_pos c, Res.bind_ok] at h
          obtain ⟨r, hr⟩ := ih _ _ h
          exact ⟨_, by rw [hr, List.append_assoc]⟩
        · rw [if_neg c, Res.bind_ok] at h
          exact ih _ _ h
  induction ms with
  | nil => intro out; simp [sendAll]
  | cons m ms ih =>
    intro out
    cases m with
    | none =>
      constructor
      · intro h; cases h
      · intro h; obtain ⟨t, h1, _⟩ := h none (List.mem_cons_self ..); cases h1
    | some t =>
      have hf : (some t :: ms).filterMap id = t :: ms.filterMap id := rfl
      rw [hf]
      constructor
      · intro h
        have h0 := h
        rw [sendAll_cons, send_some] at h
        by_cases c : ((t.takeWhile (· != 0)).all can) = true
        · rw [if_pos c, Res.bind_ok] at h
          obtain ⟨r, hr⟩ := pre _ _ _ h
          have e : out ++ (t :: ms.filterMap id) = out ++ (t.takeWhile (· != 0) :: r) := by rw [hr]; simp
          have e2 := List.append_cancel_left e
          obtain ⟨e3, _⟩ := List.cons.inj e2
          rw [← e3] at h c
          have h4 := (ih (out ++ [t])).1 (by rw [h]; simp)
          intro m hm
          rcases List.mem_cons.1 hm with hm | hm
          · subst hm
            refine ⟨t, rfl, ?_, List.all_eq_true.1 c⟩
            rw [e3]; exact takeWhile_nonul t
          · exact h4 m hm
        · rw [if_neg c, Res.bind_ok] at h
          obtain ⟨h1, h3⟩ := short _ _ _ h
          simp only [List.length_append, List.length_cons] at h1
          omega
      · intro h
        obtain ⟨t', e, h0, h1⟩ := h (some t) (List.mem_cons_self ..)
        cases e
        unfold sendAll
        rw [send_printable h0 h1, Res.bind_ok]
        have := (ih (out ++ [t])).2 (fun m hm => h m (List.mem_cons_of_mem _ hm))
        rw [this]; simp

theorem sendAll_append (can : Nat → Bool) (a b : List (Option WStr)) : ∀ out, sendAll can out (a ++ b) = (sendAll can out a >>= fun o => sendAll can o b) := by
  induction a with
  | nil => intro out; rfl
  | cons m a ih =>
    intro out
    show (send can out m >>= fun o => sendAll can o (a ++ b)) = ((send can out m >>= fun o => sendAll can o a) >>= fun o => sendAll can o b)
    cases send can out m with
    | ok o => simp only [Res.bind_ok]; exact ih o
    | ub => rfl
    | throw e => rfl

/-- **C142** (partial): the console shows every message sent, each on a line of its own and in order, then the message of the exception that gets out, and `Run` returns — exactly when all the
messages exist, have no NUL character and can be represented in the locale, and nothing but exception objects gets out. -/
theorem C142_console_partial (can : Nat → Bool) (b : Behaviour) :
    run can b = .ok ((allMessages b).filterMap id, true) ↔ (∀ m ∈ allMessages b, Printable can m) ∧ b.ending ≠ .foreign ∧ b.ending ≠ .undefined := by
  have key := sendAll_iff can (allMessages b) []
  rw [List.nil_append] at key
  obtain ⟨sends, ending⟩ := b
  unfold run allMessages at *
  cases ending with
  | returns =>
    simp only [List.append_nil] at *
    rw [← key]
    cases sendAll can [] sends with
    | ok o => simp [Res.bind_ok]
    | ub => simp
    | throw e => simp
  | throws m =>
    simp only at *
    rw [← key, sendAll_append]
    cases sendAll can [] sends with
    | ok o =>
      simp only [Res.bind_ok]
      unfold sendAll
      cases send can o m with
      | ok o2 => simp [Res.bind_ok, sendAll]
      | ub => simp
      | throw e => simp
    | ub => simp
    | throw e => simp
  | foreign =>
    simp only [ne_eq, not_true_eq_false, false_and, and_false, iff_false]
    cases sendAll can [] sends with
    | ok o => simp [Res.bind_ok]
    | ub => intro h; cases h
    | throw e => intro h; cases h
  | undefined =>
    simp only [ne_eq, not_true_eq_false, and_false, iff_false]
    cases sendAll can [] sends with
    | ok o => simp [Res.bind_ok]
    | ub => intro h; cases h
    | throw e => intro h; cases h

/-- The C locale, which a program starts in: 7-bit characters. -/
def cLocale (c : Nat) : Bool := c < 128

example : run cLocale ⟨[some (w "one"), some (w "two")], .throws (some (w "Divide by Zero"))⟩ = .ok ([w "one", w "two", w "Divide by Zero"], true) := by decide +kernel

/-- **C142**, library exceptions: whatever exception of the library gets out, after messages that can be printed, its message is the last line. -/
theorem C142_library (can : Nat → Bool) (ha : ∀ c < 128, can c = true) (c : Try.Lib) (hc : c ≠ .object) (hc2 : c ≠ .exception) (sends : List (Option WStr)) (hs : ∀ m ∈ sends, Printable can m) :
    ∃ t, libMessage c = some t ∧ t ≠ [] ∧ run can ⟨sends, .throws (libMessage c)⟩ = .ok (sends.filterMap id ++ [t], true) := by
  have ht : ∃ t, libMessage c = some t ∧ t ≠ [] ∧ 0 ∉ t ∧ t.all (· < 128) = true := by
    cases c <;> first | exact absurd rfl hc | exact absurd rfl hc2 | exact ⟨_, rfl, by decide +kernel, by decide +kernel, by decide +kernel⟩
  obtain ⟨t, h1, h2, h3, h4⟩ := ht
  refine ⟨t, h1, h2, ?_⟩
  have := (C142_console_partial can ⟨sends, .throws (libMessage c)⟩).2 ⟨?_, (fun h => by cases h), (fun h => by cases h)⟩
  · rw [this]; unfold allMessages; simp [h1]
  · intro m hm
    unfold allMessages at hm
    rcases List.mem_append.1 hm with hm | hm
    · exact hs m hm
    · rw [h1] at hm
      rw [List.mem_singleton.1 hm]
      refine ⟨t, rfl, h3, fun x hx => ha x ?_⟩
      have := List.all_eq_true.1 h4 x hx
      simpa using this

example : ∀ c < 128, cLocale c = true := by intro c h; simp [cLocale, h]

/-- The exception classes of the library with their texts (Exception.h). -/
def texts : List (Try.Lib × String) := [(.indexOutOfRange, "Index out of range"), (.argumentNull, "Arguement is null"), (.rank, "Rank exception"), (.argumentOutOfRange, "Arguement out of range"),
  (.argument, "Bad Arguement"), (.notImplemented, "Functionality not implemented"), (.invalidCast, "Invalid Cast"), (.invalidOperation, "Invalid Operation"), (.format, "Bad Format"), (.overflow, "Overflow"),
  (.arithmetic, "Overflow"), (.divideByZero, "Divide by Zero")]

/-- **C142**, the texts: every exception class of the library except Exception itself has its own text, which is printed when the exception gets out. (ArithmeticException has that of OverflowException.) -/
theorem C142_texts : (∀ c : Try.Lib, c ≠ .object → c ≠ .exception → c ∈ texts.map (·.1)) ∧ ∀ p ∈ texts, run cLocale ⟨[], .throws (libMessage p.1)⟩ = .ok ([w p.2], true) := by
  refine ⟨fun c hc hc2 => ?_, by decide +kernel⟩
  cases c <;> first | exact absurd rfl hc | exact absurd rfl hc2 | decide +kernel

/-- **C142**, the rest refuted: an uncaught `new Exception()` (no message) is undefined behaviour; text after a NUL is lost; a message with a character the locale does not have is lost with its line;
anything but an exception object leaves `Run`. -/
theorem C142_refuted : run cLocale ⟨[], .throws (libMessage .exception)⟩ = .ub ∧
    run cLocale ⟨[some (w "ab" ++ [0] ++ w "cd")], .returns⟩ = .ok ([w "ab"], true) ∧
    run cLocale ⟨[some [233]], .returns⟩ = .ok ([], true) ∧
    (∀ can sends, (∀ m ∈ sends, Printable can m) → run can ⟨sends, .foreign⟩ = .ok (sends.filterMap id, false)) := by
  refine ⟨by decide +kernel, by decide +kernel, by decide +kernel, ?_⟩
  intro can sends h
  have := (sendAll_iff can sends []).2 h
  unfold run
  rw [this, Res.bind_ok, List.nil_append]

/-! ## C143 -/

/-- Specification: the accesses on plain memory; the memory afterwards and the values read. -/
def plain : List Int → List Acc → List Int × List Int
  | d, [] => (d, [])
  | d, .read i :: r => ((plain d r).1, d.getD i.toNat 0 :: (plain d r).2)
  | d, .write i v :: r => plain (d.set i.toNat v) r

/-- The index is in the array. -/
def InRange (n : Nat) : Acc → Prop
  | .read i => 0 ≤ i ∧ i < n
  | .write i _ => 0 ≤ i ∧ i < n

open AllocProps AllocModel in
theorem getArray_cases {wd : World} (h : Inv wd) (hs : wd.st.setup = true) (size : Nat) (hn : size ≤ 0xFFFF8000) (d : List Int) :
    (wd.st.cur + room size > 32767 ∧ getArray size ⟨d, wd.st⟩ = .ub) ∨
    (wd.st.cur + room size ≤ 32767 ∧ getArray size ⟨d, wd.st⟩ = .ok (⟨d, after wd.st size⟩, .arena wd.st.cur) ∧
      ∃ w2 : World, w2.st = after wd.st size ∧ Inv w2 ∧ w2.st.setup = true ∧ w2.st.cur = wd.st.cur + room size) := by
  rcases new_arena h hs size true hn with ⟨c, en⟩ | ⟨c, en⟩
  · left; refine ⟨c, ?_⟩
    unfold getArray; rw [en]; rfl
  · right
    refine ⟨c, ?_, ⟨after wd.st size, (wd.st.cur, size) :: wd.live⟩, rfl, ?_, hs, rfl⟩
    · unfold getArray; rw [en]; rfl
    · exact inv_step (o := .new size true) h hn (by simp only [step, en, Res.bind_ok])

open AllocProps AllocModel in
/-- Accesses with valid indices: plain memory while the arena has room, undefined afterwards. -/
theorem accessAll_eq (size : Nat) (hn : size ≤ 0xFFFF8000) (ops : List Acc) : ∀ (wd : World) (d : List Int), Inv wd → wd.st.setup = true → (∀ o ∈ ops, InRange d.length o) →
    (wd.st.cur + ops.length * room size ≤ 32767 → ∃ a, accessAll size ⟨d, wd.st⟩ ops = .ok (⟨(plain d ops).1, a⟩, (plain d ops).2)) ∧
    (wd.st.cur + ops.length * room size > 32767 → accessAll size ⟨d, wd.st⟩ ops = .ub) := by
  induction ops with
  | nil =>
    intro wd d h _ _
    have := h.le
    exact ⟨fun _ => ⟨_, rfl⟩, fun h => by simp at h; omega⟩
  | cons o ops ih =>
    intro wd d h hs hr
    have hl : (o :: ops).length * room size = ops.length * room size + room size := by rw [List.length_cons, Nat.succ_mul]
    rw [hl]
    rcases getArray_cases h hs size hn d with ⟨c, e⟩ | ⟨c, e, w2, e2, h2, hs2, c2⟩
    · constructor
      · intro hh; generalize ops.length * room size = x at hh; omega
      · intro _
        cases o with
        | read i => simp only [accessAll, readElem, e, Res.bind_ub]
        | write i v => simp only [accessAll, writeElem, e, Res.bind_ub]
    · have ho := hr o (List.mem_cons_self ..)
      have hr2 : ∀ x ∈ ops, InRange d.length x := fun x hx => hr x (List.mem_cons_of_mem _ hx)
      cases o with
      | read i =>
        obtain ⟨i0, i1⟩ := ho
        have hi : i.toNat < d.length := by omega
        have er : readElem size ⟨d, wd.st⟩ i = .ok (⟨d, w2.st⟩, d.getD i.toNat 0) := by
          unfold readElem
          rw [e, Res.bind_ok, if_neg (by omega)]
          simp only [List.getElem?_eq_getElem hi, List.getD_eq_getElem?_getD, Option.getD_some, e2]
        obtain ⟨g1, g2⟩ := ih w2 d h2 hs2 hr2
        rw [c2] at g1 g2
        unfold accessAll
        rw [er, Res.bind_ok]
        constructor
        · intro hh
          obtain ⟨a, ha⟩ := g1 (by generalize ops.length * room size = x at *; omega)
          exact ⟨a, by simp only [ha, Res.bind_ok, plain]⟩
        · intro hh
          simp only [g2 (by generalize ops.length * room size = x at *; omega), Res.bind_ub]
      | write i v =>
        obtain ⟨i0, i1⟩ := ho
        have hi : i.toNat < d.length := by omega
        have er : writeElem size ⟨d, wd.st⟩ i v = .ok ⟨d.set i.toNat v, w2.st⟩ := by
          unfold writeElem
          rw [e, Res.bind_ok, if_neg (by rintro (x | x) <;> [exact absurd x (by omega); exact absurd (show d.length ≤ i.toNat from x) (by omega)])]
          simp only [e2]
        obtain ⟨g1, g2⟩ := ih w2 (d.set i.toNat v) h2 hs2 (by rw [List.length_set]; exact hr2)
        rw [c2] at g1 g2
        unfold accessAll
        rw [er, Res.bind_ok]
        constructor
        · intro hh; exact g1 (by generalize ops.length * room size = x at *; omega)
        · intro hh; exact g2 (by generalize ops.length * room size = x at *; omega)

/-- An arena with the whole of its memory free. -/
def fresh (g : List Nat) : AllocModel.State := AllocModel.setup AllocModel.initial (some g)

theorem fresh_inv (g : List Nat) (hg : g.length = 32767) : AllocProps.Inv ⟨fresh g, []⟩ :=
  AllocProps.inv_step (o := .setup (some g)) AllocProps.inv_start hg rfl

/-- **C143** (partial): the program sees the platform's array as plain memory that starts as 1, 2, 3, 4: what is written through one access is read by the later ones — while the arena,
fresh from the set-up, has room for one wrapper (`size` bytes, rounded up to 8) per access. -/
theorem C143_memory_partial (g : List Nat) (hg : g.length = 32767) (size : Nat) (hn : size ≤ 0xFFFF8000) (ops : List Acc) (hr : ∀ o ∈ ops, InRange 4 o)
    (room : ops.length * ((size + 7) / 8 * 8) ≤ 32767) :
    ∃ a, accessAll size (platformStart (fresh g)) ops = .ok (⟨(plain [1, 2, 3, 4] ops).1, a⟩, (plain [1, 2, 3, 4] ops).2) :=
  (accessAll_eq size hn ops ⟨fresh g, []⟩ [1, 2, 3, 4] (fresh_inv g hg) rfl hr).1 (by rw [show (fresh g).cur = 0 from rfl, Nat.zero_add]; exact room)

/-- What plain memory is: a read gives the value of the last write to the index, or the initial one. -/
theorem plain_last (d : List Int) (ops : List Acc) (i : Nat) (hi : i < d.length) : (plain d ops).1.getD i 0 =
    match (ops.filterMap (fun o => match o with | .write j v => if j.toNat = i then some v else none | .read _ => none)).getLast? with
    | some v => v
    | none => d.getD i 0 := by
  induction ops generalizing d with
  | nil => rfl
  | cons o ops ih =>
    cases o with
    | read j => exact ih d hi
    | write j v =>
      have := ih (d.set j.toNat v) (by rw [List.length_set]; exact hi)
      show (plain (d.set j.toNat v) ops).1.getD i 0 = _
      rw [this]
      by_cases c : j.toNat = i
      · simp only [List.filterMap_cons, c, if_true]
        rw [List.getLast?_cons]
        cases (List.filterMap (fun o => match o with | .write j v => if j.toNat = i then some v else none | .read _ => none) ops).getLast? with
        | none => simp [List.getD_eq_getElem?_getD, hi]
        | some v => simp
      · simp only [List.filterMap_cons, c, if_false]
        cases (List.filterMap (fun o => match o with | .write j v => if j.toNat = i then some v else none | .read _ => none) ops).getLast? with
        | none => simp [List.getD_eq_getElem?_getD, List.getElem?_set_ne c]
        | some v => rfl

/-- **C143**: an index outside the array throws `IndexOutOfRangeException` and nothing is written (with room for the wrapper). -/
theorem C143_index (g : List Nat) (hg : g.length = 32767) (size : Nat) (hn : (size + 7) / 8 * 8 ≤ 32767) (i v : Int) (hi : i < 0 ∨ 4 ≤ i) :
    readElem size (platformStart (fresh g)) i = .throw .indexOutOfRange ∧ writeElem size (platformStart (fresh g)) i v = .throw .indexOutOfRange := by
  rcases getArray_cases (fresh_inv g hg) rfl size (by omega) [1, 2, 3, 4] with ⟨c, _⟩ | ⟨_, e, _⟩
  · exfalso
    have : (fresh g).cur = 0 := rfl
    unfold AllocProps.room at c
    rw [this] at c; omega
  · unfold readElem writeElem platformStart
    simp only [] at e
    rw [e, Res.bind_ok, Res.bind_ok]
    constructor
    · by_cases c : i < 0
      · rw [if_pos c]
      · rw [if_neg c]
        have : [(1 : Int), 2, 3, 4][i.toNat]? = none := List.getElem?_eq_none (by simp only [List.length_cons, List.length_nil]; omega)
        simp only [this]
    · rw [if_pos]
      simp only [List.length_cons, List.length_nil]; omega

/-- Reading element 2, writing it, reading it again. -/
def exAcc : List Acc := [.read 2, .write 2 7, .read 2]
example : (∀ o ∈ exAcc, InRange 4 o) ∧ exAcc.length * ((48 + 7) / 8 * 8) ≤ 32767 ∧ (plain [1, 2, 3, 4] exAcc) = ([1, 2, 7, 4], [3, 7]) := by
  refine ⟨?_, by decide, by decide⟩
  intro o ho
  simp only [exAcc, List.mem_cons, List.not_mem_nil, or_false] at ho
  rcases ho with rfl | rfl | rfl <;> exact ⟨by decide, by decide⟩

/-- **C143**, the rest refuted: every access allocates a wrapper that is never freed, so a program that uses the platform's array often enough has undefined behaviour, whatever the (positive) size of the wrapper. -/
theorem C143_exhaustion_refuted (g : List Nat) (hg : g.length = 32767) (size : Nat) (h0 : 0 < size) (hn : size ≤ 0xFFFF8000) (i : Int) (hi : 0 ≤ i ∧ i < 4) (n : Nat) (h : 4096 ≤ n) :
    accessAll size (platformStart (fresh g)) (List.replicate n (.read i)) = .ub := by
  refine (accessAll_eq size hn _ ⟨fresh g, []⟩ [1, 2, 3, 4] (fresh_inv g hg) rfl ?_).2 ?_
  · intro o ho; rw [List.eq_of_mem_replicate ho]; exact hi
  · rw [List.length_replicate, show (fresh g).cur = 0 from rfl, Nat.zero_add]
    have : 8 ≤ AllocProps.room size := by unfold AllocProps.room; omega
    calc 32767 < 4096 * 8 := by decide
      _ ≤ n * AllocProps.room size := Nat.mul_le_mul h this

/-- **C143**, refuted: two accesses to the property are two objects. -/
theorem C143_identity_refuted (g : List Nat) (hg : g.length = 32767) (size : Nat) (h0 : 0 < size) (hn : 2 * ((size + 7) / 8 * 8) ≤ 32767) :
    ∃ p q a b, getArray size (platformStart (fresh g)) = .ok (p, a) ∧ getArray size p = .ok (q, b) ∧ a ≠ b := by
  rcases getArray_cases (fresh_inv g hg) rfl size (by omega) [1, 2, 3, 4] with ⟨c, _⟩ | ⟨_, e, w2, e2, h2, hs2, c2⟩
  · exfalso
    have : (fresh g).cur = 0 := rfl
    unfold AllocProps.room at c
    rw [this] at c; omega
  · rcases getArray_cases h2 hs2 size (by omega) [1, 2, 3, 4] with ⟨c, _⟩ | ⟨_, e3, _⟩
    · exfalso
      have : (fresh g).cur = 0 := rfl
      rw [c2] at c
      unfold AllocProps.room at c
      simp only [this] at c; omega
    · rw [e2] at e3
      refine ⟨_, _, _, _, e, e3, ?_⟩
      have e4 : (AllocProps.after (fresh g) size).cur = AllocProps.room size := by
        rw [← e2, c2]; exact Nat.zero_add _
      simp only [show (fresh g).cur = 0 from rfl, e4]
      intro h
      injection h with h
      unfold AllocProps.room at h; omega

/-! ## C144 -/

/-- No listener of the translator's is open after `h`: nothing was added since the last removal (or ever). -/
def Idle (h : List LogOp) : Prop := ∃ a b, h = a ++ b ∧ (a = [] ∨ ∃ a', a = a' ++ [.remove]) ∧ ∀ q, LogOp.add q ∉ b

/-- The log `p` is open after the history `h`: it was opened at some point when none was, and no removal came after. -/
def Open (h : List LogOp) (p : WStr) : Prop := ∃ a q b, h = a ++ .add q :: b ∧ p = q ++ w ".err" ∧ LogOp.remove ∉ b ∧ Idle a

/-- The names of .NET's `TraceEventType`. -/
def severityName : Severity → WStr
  | .critical => w "Critical" | .error => w "Error" | .warning => w "Warning" | .information => w "Information" | .verbose => w "Verbose"

/-- One line of the log: time, severity, message. -/
def entry (nl now : WStr) (s : Severity) (m : WStr) : WStr := now ++ w ": " ++ severityName s ++ w " = " ++ m ++ nl

theorem entry_eq (nl now : WStr) (s : Severity) (m : WStr) : entry nl now s m = now ++ w ": " ++ s.text ++ w " = " ++ m ++ nl := by cases s <;> rfl

theorem idle_snoc (h : List LogOp) (o : LogOp) : Idle (h ++ [o]) ↔ o = .remove ∨ ((∀ q, o ≠ .add q) ∧ Idle h) := by
  constructor
  · rintro ⟨a, b, e, ha, hb⟩
    rcases List.eq_nil_or_concat b with rfl | ⟨b', x, rfl⟩
    · rw [List.append_nil] at e
      rcases ha with rfl | ⟨a', rfl⟩
      · simp at e
      · left; simpa using (List.append_inj' e rfl).2
    · rw [List.concat_eq_append, ← List.append_assoc] at e
      obtain ⟨e1, e2⟩ := List.append_inj' e rfl
      simp only [List.cons.injEq, and_true] at e2
      subst e2
      right
      refine ⟨fun q hq => hb q (by rw [hq]; simp), a, b', e1, ha, fun q hq => hb q (by simp [hq])⟩
  · rintro (rfl | ⟨ho, a, b, e, ha, hb⟩)
    · exact ⟨h ++ [.remove], [], by simp, Or.inr ⟨h, rfl⟩, by simp⟩
    · refine ⟨a, b ++ [o], by rw [e, List.append_assoc], ha, ?_⟩
      intro q hq
      rcases List.mem_append.1 hq with hq | hq
      · exact hb q hq
      · exact ho q (List.mem_singleton.1 hq).symm

theorem open_snoc (h : List LogOp) (o : LogOp) (p : WStr) : Open (h ++ [o]) p ↔ (∃ q, o = .add q ∧ p = q ++ w ".err" ∧ Idle h) ∨ (o ≠ .remove ∧ Open h p) := by
  constructor
  · rintro ⟨a, q, b, e, hp, hb, ha⟩
    rcases List.eq_nil_or_concat b with rfl | ⟨b', x, rfl⟩
    · obtain ⟨e1, e2⟩ := List.append_inj' e rfl
      simp only [List.cons.injEq, and_true] at e2
      left; exact ⟨q, e2, hp, e1 ▸ ha⟩
    · rw [List.concat_eq_append, ← List.cons_append, ← List.append_assoc] at e
      obtain ⟨e1, e2⟩ := List.append_inj' e rfl
      simp only [List.cons.injEq, and_true] at e2
      subst e2
      right
      exact ⟨fun hq => hb (by rw [hq]; simp), a, q, b', e1, hp, fun hq => hb (by simp [hq]), ha⟩
  · rintro (⟨q, rfl, hp, hi⟩ | ⟨ho, a, q, b, e, hp, hb, ha⟩)
    · exact ⟨h, q, [], rfl, hp, by simp, hi⟩
    · refine ⟨a, q, b ++ [o], by rw [e]; simp, hp, ?_, ha⟩
      intro hq
      rcases List.mem_append.1 hq with hq | hq
      · exact hb hq
      · exact ho (List.mem_singleton.1 hq).symm

theorem idle_nil : Idle [] := ⟨[], [], rfl, Or.inl rfl, by simp⟩
theorem open_nil (p : WStr) : ¬ Open [] p := by rintro ⟨a, q, b, e, _⟩; simp at e

theorem removeFirst_none (r : List (Option WStr)) (h : ∀ x ∈ r, x = none) (s : List (Option WStr)) : removeFirst (r ++ s) = r ++ removeFirst s := by
  induction r with
  | nil => rfl
  | cons x r ih =>
    have := h x (List.mem_cons_self ..)
    subst this
    show none :: removeFirst (r ++ s) = none :: (r ++ removeFirst s)
    rw [ih (fun y hy => h y (List.mem_cons_of_mem _ hy))]

theorem traceTo_none (nl now : WStr) (s : Severity) (m : WStr) (r : List (Option WStr)) (h : ∀ x ∈ r, x = none) (t : List (Option WStr)) (f : WStr → WStr) :
    traceTo nl now s m (r ++ t) f = traceTo nl now s m t f := by
  induction r with
  | nil => rfl
  | cons x r ih =>
    have := h x (List.mem_cons_self ..)
    subst this
    exact ih (fun y hy => h y (List.mem_cons_of_mem _ hy))

theorem logRun_snoc (nl : WStr) (l : Log) (h : List LogOp) (o : LogOp) : logRun nl l (h ++ [o]) = logStep nl (logRun nl l h) o := by
  unfold logRun; rw [List.foldl_append]; rfl

/-- **C144**, listeners: after any history of the translator's calls at most one of its logs is open, and the listeners of others are untouched. -/
theorem C144_listeners (nl : WStr) (l : Log) (hl : ∀ x ∈ l.listeners, x = none) (h : List LogOp) :
    (Idle h ∧ (∀ p, ¬ Open h p) ∧ (logRun nl l h).listeners = l.listeners) ∨
    (¬ Idle h ∧ ∃ p, Open h p ∧ (∀ q, Open h q → q = p) ∧ (logRun nl l h).listeners = l.listeners ++ [some p]) := by
  induction h using List.reverseRecOn with
  | nil => left; exact ⟨idle_nil, open_nil, rfl⟩
  | append_singleton h o ih =>
    rw [logRun_snoc]
    have hany : l.listeners.any (·.isSome) = false := by
      rw [List.any_eq_false]; intro x hx; rw [hl x hx]; simp
    simp only [idle_snoc, open_snoc]
    cases o with
    | remove =>
      left
      refine ⟨Or.inl rfl, ?_, ?_⟩
      · rintro p (⟨q, h1, _⟩ | ⟨h1, _⟩)
        · cases h1
        · exact h1 rfl
      · rcases ih with ⟨_, _, e⟩ | ⟨_, p, _, _, e⟩
        · show removeFirst _ = _
          rw [e]
          have := removeFirst_none l.listeners hl []
          simpa [removeFirst] using this
        · show removeFirst _ = _
          rw [e, removeFirst_none l.listeners hl]
          simp [removeFirst]
    | add q =>
      right
      refine ⟨?_, ?_⟩
      · rintro (h1 | ⟨h1, _⟩)
        · cases h1
        · exact h1 q rfl
      · rcases ih with ⟨hi, hn, e⟩ | ⟨hi, p, ho, hu, e⟩
        · refine ⟨q ++ w ".err", Or.inl ⟨q, rfl, rfl, hi⟩, ?_, ?_⟩
          · rintro p (⟨q', h1, h2, _⟩ | ⟨_, h1⟩)
            · cases h1; exact h2
            · exact absurd h1 (hn p)
          · show (addListener q _).listeners = _
            unfold addListener
            rw [e, hany]; rfl
        · refine ⟨p, Or.inr ⟨by simp, ho⟩, ?_, ?_⟩
          · rintro p' (⟨q', h1, h2, h3⟩ | ⟨_, h1⟩)
            · exact absurd h3 hi
            · exact hu _ h1
          · show (addListener q _).listeners = _
            unfold addListener
            rw [if_pos (by rw [e]; simp), e]
    | trace now s m =>
      rcases ih with ⟨hi, hn, e⟩ | ⟨hi, p, ho, hu, e⟩
      · left
        refine ⟨Or.inr ⟨by simp, hi⟩, ?_, e⟩
        rintro p (⟨q, h1, _⟩ | ⟨_, h1⟩)
        · cases h1
        · exact hn p h1
      · right
        refine ⟨?_, p, Or.inr ⟨by simp, ho⟩, ?_, e⟩
        · rintro (h1 | ⟨_, h1⟩)
          · cases h1
          · exact hi h1
        · rintro q (⟨q', h1, _⟩ | ⟨_, h1⟩)
          · cases h1
          · exact hu q h1

/-- **C144**: in any history an event adds one line to the log that is open at that moment and nothing to any other file; opening and closing change no file. -/
theorem C144_log (nl : WStr) (l : Log) (hl : ∀ x ∈ l.listeners, x = none) (h : List LogOp) :
    (∀ now s m p, (Open h p → (logRun nl l (h ++ [.trace now s m])).files p = (logRun nl l h).files p ++ entry nl now s m) ∧
      (¬ Open h p → (logRun nl l (h ++ [.trace now s m])).files p = (logRun nl l h).files p)) ∧
    (∀ q, (logRun nl l (h ++ [.add q])).files = (logRun nl l h).files) ∧ (logRun nl l (h ++ [.remove])).files = (logRun nl l h).files := by
  refine ⟨?_, ?_, ?_⟩
  · intro now s m p
    rw [logRun_snoc]
    show (Open h p → traceTo nl now s m (logRun nl l h).listeners (logRun nl l h).files p = _) ∧ (¬ Open h p → traceTo nl now s m (logRun nl l h).listeners (logRun nl l h).files p = _)
    rcases C144_listeners nl l hl h with ⟨_, hn, e⟩ | ⟨_, p', ho, hu, e⟩
    · rw [e]
      have := traceTo_none nl now s m l.listeners hl [] (logRun nl l h).files
      rw [List.append_nil] at this
      rw [this]
      exact ⟨fun x => absurd x (hn p), fun _ => rfl⟩
    · rw [e, traceTo_none nl now s m l.listeners hl]
      show (Open h p → writeTrace nl now s m p' (logRun nl l h).files p = _) ∧ (¬ Open h p → writeTrace nl now s m p' (logRun nl l h).files p = _)
      unfold writeTrace
      constructor
      · intro x; rw [if_pos (hu p x)]; rfl
      · intro x; rw [if_neg (fun (y : p = p') => x (y ▸ ho))]
  · intro q
    rw [logRun_snoc]
    show (addListener q _).files = _
    unfold addListener
    split <;> rfl
  · rw [logRun_snoc]; rfl

/-- A history: opened, closed, opened elsewhere. -/
def exHistory : List LogOp := [.add (w "a"), .trace [] .error (w "x"), .remove, .add (w "b"), .add (w "c"), .trace [] .warning (w "y")]
example : Open exHistory (w "b.err") := ⟨[.add (w "a"), .trace [] .error (w "x"), .remove], w "b", [.add (w "c"), .trace [] .warning (w "y")], rfl, by decide +kernel, by decide +kernel,
  [.add (w "a"), .trace [] .error (w "x"), .remove], [], rfl, Or.inr ⟨[.add (w "a"), .trace [] .error (w "x")], rfl⟩, by simp⟩

/-- The trace events of a list of calls. -/
def events (nl : WStr) (ops : List LogOp) : WStr := ops.flatMap (fun o => match o with | .trace now s m => entry nl now s m | _ => [])

theorem open_append (h : List LogOp) (b : List LogOp) (hb : LogOp.remove ∉ b) (p : WStr) (ho : Open h p) : Open (h ++ b) p := by
  obtain ⟨a, q, c, e, hp, hc, ha⟩ := ho
  refine ⟨a, q, c ++ b, by rw [e]; simp, hp, ?_, ha⟩
  intro x
  rcases List.mem_append.1 x with x | x
  · exact hc x
  · exact hb x

theorem log_append (nl : WStr) (l : Log) (hl : ∀ x ∈ l.listeners, x = none) (h : List LogOp) (p : WStr) (ho : Open h p) (b : List LogOp) (hb : LogOp.remove ∉ b) :
    (logRun nl l (h ++ b)).files p = (logRun nl l h).files p ++ events nl b := by
  induction b using List.reverseRecOn with
  | nil => simp [events]
  | append_singleton b o ih =>
    have hb' : LogOp.remove ∉ b := fun x => hb (by simp [x])
    have := C144_log nl l hl (h ++ b)
    rw [← List.append_assoc]
    unfold events at *
    rw [List.flatMap_append]
    cases o with
    | remove => exact absurd (by simp) hb
    | add q => rw [this.2.1 q, ih hb']; simp
    | trace now s m => rw [(this.1 now s m p).1 (open_append h b hb' p ho), ih hb', List.append_assoc]; simp

/-- **C144**, one run of the translator: when the path could be determined, the log beside the output gets every event of the run, in order, and the exception that ends it, if one does. -/
theorem C144_main (nl : WStr) (l : Log) (hl : ∀ x ∈ l.listeners, x = none) (path now : WStr) (body : List LogOp) (hb : LogOp.remove ∉ body) (failed : Option (WStr × WStr)) :
    (logRun nl l (mainOps (some path) now body failed)).files (path ++ w ".err") = l.files (path ++ w ".err") ++ events nl body ++
      (match failed with
       | some e => entry nl now .error (w "Exception: " ++ e.1) ++ entry nl now .error (w "StackTrace: " ++ e.2)
       | none => []) := by
  have ho : Open [LogOp.add path] (path ++ w ".err") := ⟨[], path, [], rfl, rfl, by simp, idle_nil⟩
  have h0 : (logRun nl l [.add path]).files = l.files := by
    exact (C144_log nl l hl []).2.1 path
  cases failed with
  | none =>
    show (logRun nl l (.add path :: (body ++ [.remove]))).files _ = _
    rw [← List.cons_append, (C144_log nl l hl (.add path :: body)).2.2]
    have := log_append nl l hl [.add path] _ ho body hb
    rw [List.singleton_append] at this
    rw [this, h0]; simp
  | some e =>
    show (logRun nl l ([.add path] ++ (body ++ [.trace now .error (w "Exception: " ++ e.1), .trace now .error (w "StackTrace: " ++ e.2)]))).files _ = _
    rw [log_append nl l hl [.add path] _ ho _ (by simp [hb]), h0]
    simp [events]

example : LogOp.remove ∉ [LogOp.trace (w "1") .warning (w "y")] := by decide +kernel

/-- **C144**, refuted: a failure before the log is opened (the path to the assembly) is written to no file. -/
theorem C144_early_refuted (nl : WStr) (l : Log) (hl : ∀ x ∈ l.listeners, x = none) (now : WStr) (body : List LogOp) (failed : Option (WStr × WStr)) :
    (logRun nl l (mainOps none now body failed)).files = l.files := by
  cases failed with
  | none => rfl
  | some e =>
    have hs : ∀ (now : WStr) s m, (logStep nl l (.trace now s m)) = l := by
      intro now s m
      have := traceTo_none nl now s m l.listeners hl [] l.files
      rw [List.append_nil] at this
      show ({ l with files := traceTo nl now s m l.listeners l.files } : Log) = l
      rw [this]; rfl
    show (logStep nl (logStep nl l (.trace now .error (w "Exception: " ++ e.1))) (.trace now .error (w "StackTrace: " ++ e.2))).files = _
    rw [hs, hs]

/-- **C144**, refuted: a run that failed leaves its log open, so the events of a second run in the same process go to the first run's log and not to its own. -/
theorem C144_second_refuted (nl : WStr) (l : Log) (hl : ∀ x ∈ l.listeners, x = none) (p q now : WStr) (hpq : p ≠ q) (e : WStr × WStr) (s : Severity) (m : WStr) :
    (logRun nl l (mainOps (some p) now [] (some e) ++ mainOps (some q) now [.trace now s m] none)).files (q ++ w ".err") = l.files (q ++ w ".err") := by
  have hne : q ++ w ".err" ≠ p ++ w ".err" := fun h => hpq (List.append_cancel_right h).symm
  have hO : ∀ b : List LogOp, (∀ o ∈ b, ∃ n t k, o = LogOp.trace n t k ∨ o = .add q) → ¬ Open ([.add p] ++ b) (q ++ w ".err") := by
    intro b hb
    have hp : Open ([.add p] ++ b) (p ++ w ".err") := open_append _ _ (fun h => by obtain ⟨_, _, _, h | h⟩ := hb _ h <;> cases h) _ ⟨[], p, [], rfl, rfl, by simp, idle_nil⟩
    rcases C144_listeners nl l hl ([.add p] ++ b) with ⟨_, h2, _⟩ | ⟨_, p', _, hu, _⟩
    · exact absurd hp (h2 _)
    · intro h; exact hne ((hu _ h).trans (hu _ hp).symm)
  have keep : ∀ b : List LogOp, (∀ o ∈ b, ∃ n t k, o = LogOp.trace n t k ∨ o = .add q) → (logRun nl l ([.add p] ++ b)).files (q ++ w ".err") = l.files (q ++ w ".err") := by
    intro b
    induction b using List.reverseRecOn with
    | nil => intro _; exact congrFun ((C144_log nl l hl []).2.1 p) _
    | append_singleton b o ih =>
      intro hb
      have hb' : ∀ o ∈ b, ∃ n t k, o = LogOp.trace n t k ∨ o = .add q := fun o ho => hb o (by simp [ho])
      rw [← List.append_assoc]
      obtain ⟨n, t, k, rfl | rfl⟩ := hb o (by simp)
      · rw [((C144_log nl l hl ([LogOp.add p] ++ b)).1 n t k _).2 (hO b hb'), ih hb']
      · rw [(C144_log nl l hl ([LogOp.add p] ++ b)).2.1 q, ih hb']
  show (logRun nl l (([.add p] ++ [.trace now .error (w "Exception: " ++ e.1), .trace now .error (w "StackTrace: " ++ e.2), .add q, .trace now s m]) ++ [.remove])).files _ = _
  rw [(C144_log nl l hl _).2.2]
  apply keep
  intro o ho
  simp only [List.mem_cons, List.not_mem_nil, or_false] at ho
  rcases ho with rfl | rfl | rfl | rfl
  · exact ⟨_, _, _, Or.inl rfl⟩
  · exact ⟨_, _, _, Or.inl rfl⟩
  · exact ⟨[], .error, [], Or.inr rfl⟩
  · exact ⟨_, _, _, Or.inl rfl⟩

example : ∃ (l : Log), (∀ x ∈ l.listeners, x = none) ∧ l.listeners ≠ [] := ⟨⟨[none], fun _ => []⟩, by simp, by simp⟩

end Verif.Support
