import Verif.Gdb.TraceModel
import Verif.Gdb.FrameRead
/-!
# Threads and stack traces of gdb: what is read, and when the text is not left
-/
namespace Satyr.Gdb
open Satyr.CStr Satyr.Normalize Satyr.Frames

/-! ## Specification -/

/-- The identification of a thread: hexadecimal or decimal. -/
inductive ThreadId : Str → Prop
  | hex {hs : Str} (h : hs ≠ [] ∧ ∀ c ∈ hs, IsHex c = true) : ThreadId (c!"0x" ++ hs)
  | dec {ds : Str} (h : ds ≠ [] ∧ ∀ c ∈ ds, IsDec c = true) : ThreadId ds

/-- A decimal number that fits into 32 bits. -/
def Dec32 (ds : Str) : Prop := ds ≠ [] ∧ (∀ c ∈ ds, IsDec c = true) ∧ decValue ds < 2 ^ 32

instance (ds : Str) : Decidable (Dec32 ds) := by unfold Dec32; infer_instance

/-- The number of a light-weight process may be given; otherwise the thread id stays what it is. -/
inductive LwpPart (tid : Nat) : Str → Nat → Prop
  | none : LwpPart tid [] tid
  | lwp {es : Str} (he : Dec32 es) : LwpPart tid (c!"(LWP " ++ (es ++ c!")")) (decValue es)

/-- A thread may be named in parentheses, and there the number of the light-weight process may be given. -/
inductive NamePart (tid : Nat) : Str → Nat → Prop
  | none : NamePart tid [] tid
  | name {id l : Str} {k n : Nat} (hi : ThreadId id) (hl : LwpPart tid l n) :
      NamePart tid (c!"(Thread " ++ (id ++ (List.replicate k ' ' ++ (l ++ c!")")))) n

/-- The first line of a thread, its number and thread id. -/
inductive ThreadHeader : Str → Nat → Nat → Prop
  | mk {ds l p : Str} {tid₁ tid k₁ k₂ : Nat} (hd : Dec32 ds) (hl : LwpPart (2 ^ 32 - 1) l tid₁) (hp : NamePart tid₁ p tid) :
      ThreadHeader (c!"Thread" ++ (sp k₁ ++ (ds ++ (sp k₂ ++ (l ++ (p ++ c!":\n")))))) (decValue ds) tid

/-- The frames of a thread, their text, and what follows them: the end of the text or another thread. After the first lines of a
frame there may be more text, say its variables. -/
inductive FramesText : List GdbFrame → Str → Str → Prop
  | last {f : GdbFrame} {s v : Str} (h : FrameText f s v) (hb : NoBreak (s ++ v)) : FramesText [f] (s ++ v) []
  | thread {f : GdbFrame} {s v u : Str} (h : FrameText f s (v ++ '\n' :: (c!"Thread" ++ u))) (hb : NoBreak (s ++ v)) :
      FramesText [f] (s ++ (v ++ c!"\n")) (c!"Thread" ++ u)
  | cons {f : GdbFrame} {fs : List GdbFrame} {s v t u : Str} (h : FrameText f s (v ++ '\n' :: (t ++ u))) (hb : NoBreak (s ++ v))
      (hs : FramesText fs t u) : FramesText (f :: fs) (s ++ (v ++ '\n' :: t)) u

/-- Threads and their text. -/
inductive ThreadsText : List GdbThread → Str → Prop
  | last {h t : Str} {number tid : Nat} {frames : List GdbFrame} (hh : ThreadHeader h number tid) (hf : FramesText frames t []) :
      ThreadsText [{ number, tid, frames }] (h ++ t)
  | cons {h t u : Str} {number tid : Nat} {frames : List GdbFrame} {ts : List GdbThread} (hh : ThreadHeader h number tid)
      (hf : FramesText frames t u) (hs : ThreadsText ts u) : ThreadsText ({ number, tid, frames } :: ts) (h ++ (t ++ u))

/-! ## Headers -/

theorem lwp_read {es : Str} (he : Dec32 es) (u : Str) : parseLwp (c!"(LWP " ++ (es ++ ')' :: u)) = .ok (some (decValue es, u)) := by
  unfold parseLwp
  rw [skipString_append, if_neg (by simp)]
  dsimp only
  rw [parseUint32_digits (rest := ')' :: u) he.2.1 he.1 he.2.2 (show IsDec ')' = false by decide), Out.bind_ok]
  dsimp only
  rw [if_neg (by simpa using he.1), skipChar_cons (by decide), Out.bind_ok]
  rfl

theorem lwp_other {s : Str} (h : ∀ v, s ≠ c!"(LWP " ++ v) : parseLwp s = .ok none := by
  unfold parseLwp
  rw [skipString_other h]
  rfl

theorem uint32_full (s : Str) : (∃ ds u, s = ds ++ u ∧ Dec32 ds ∧ parseUint32 s = .ok (ds.length, some (decValue ds), u)) ∨
    parseUint32 s = .ok (0, none, s) := by
  have h := C25_uint32 s
  dsimp only at h
  by_cases hc : s.takeWhile IsDec ≠ [] ∧ decValue (s.takeWhile IsDec) < 2 ^ 32
  · rw [if_pos hc] at h
    refine .inl ⟨_, _, ?_, ⟨hc.1, fun c hc => List.mem_takeWhile_imp hc, hc.2⟩, h⟩
    rw [drop_takeWhile, List.takeWhile_append_dropWhile]
  · rw [if_neg hc] at h
    exact .inr h

theorem dropWhile_peek {p : Char → Bool} (h0 : p '\x00' = false) : ∀ s : Str, p (CStr.peek (s.dropWhile p)) = false
  | [] => h0
  | c :: s => by
    rw [List.dropWhile_cons]
    split
    · exact dropWhile_peek h0 s
    · rename_i h
      simpa using h

theorem ThreadId.split {id : Str} (h : ThreadId id) : ∃ c t, id = c :: t ∧ IsDec c = true := by
  cases h with
  | hex => exact ⟨'0', _, rfl, by decide⟩
  | dec h =>
    cases id with
    | nil => exact absurd rfl h.1
    | cons c t => exact ⟨c, t, rfl, h.2 c (by simp)⟩

theorem dec_hex {c : Char} (h : IsDec c = true) : IsHex c = true := by
  have : ∀ c ∈ c!"0123456789", IsHex c = true := by decide
  exact this c (by simpa [IsDec] using h)

theorem skipHex_read {hs u : Str} (hh : hs ≠ [] ∧ ∀ c ∈ hs, IsHex c = true) (hu : IsHex (CStr.peek u) = false) :
    skipHex0xUint (c!"0x" ++ (hs ++ u)) = .ok (2 + hs.length, u) := by
  unfold skipHex0xUint
  have h1 : skipChar (c!"0x" ++ (hs ++ u)) '0' = .ok (true, 'x' :: (hs ++ u)) := skipChar_cons (by decide) _
  have h2 : skipCharSpan (hs ++ u) digits16 = .ok (hs.length, u) := by
    have := takeWhile_append_stop hh.2 hu
    rw [skipCharSpan_eq, span16, this.1, this.2]
  rw [h1, Out.bind_ok]
  dsimp only
  rw [if_neg (by decide), skipChar_cons (by decide), Out.bind_ok]
  dsimp only
  rw [if_neg (by decide), h2, Out.bind_ok]
  dsimp only
  have : 0 < hs.length := List.length_pos_iff.2 hh.1
  rw [if_neg (by omega)]

theorem skipHex_other {s : Str} (h : ∀ c t, s = '0' :: 'x' :: c :: t → IsHex c = false) : skipHex0xUint s = .ok (0, s) := by
  unfold skipHex0xUint
  by_cases h0 : CStr.peek s = '0'
  · obtain ⟨t, rfl⟩ := peek_split h0 (by decide)
    rw [skipChar_cons (by decide), Out.bind_ok]
    dsimp only
    rw [if_neg (by decide)]
    by_cases hx : CStr.peek t = 'x'
    · obtain ⟨u, rfl⟩ := peek_split hx (by decide)
      rw [skipChar_cons (by decide), Out.bind_ok]
      dsimp only
      rw [if_neg (by decide), skipCharSpan_eq, span16, Out.bind_ok]
      cases u with
      | nil => rfl
      | cons c u =>
        have := h c u rfl
        dsimp only
        rw [List.takeWhile_cons, this]
        rfl
    · rw [skipChar_not (by decide) hx, Out.bind_ok]
      rfl
  · rw [skipChar_not (by decide) h0, Out.bind_ok]
    rfl

theorem threadId_read {id u : Str} (h : ThreadId id) (hx : IsHex (CStr.peek u) = false) (hx2 : CStr.peek u ≠ 'x') :
    ∃ n, n ≠ 0 ∧ skipThreadId (id ++ u) = .ok (n, u) := by
  have hd : IsDec (CStr.peek u) = false := by
    cases h : IsDec (CStr.peek u) with
    | false => rfl
    | true => rw [dec_hex h] at hx; cases hx
  unfold skipThreadId
  cases h with
  | @hex hs hh =>
    refine ⟨2 + hs.length, by omega, ?_⟩
    rw [List.append_assoc, skipHex_read hh hx, Out.bind_ok]
    dsimp only
    rw [if_neg (by omega)]
  | dec hh =>
    refine ⟨id.length, by simpa using hh.1, ?_⟩
    rw [skipHex_other, Out.bind_ok]
    · dsimp only
      rw [if_pos rfl, skipCharSpan_eq, span10]
      have := takeWhile_append_stop hh.2 hd
      rw [this.1, this.2]
    · intro c t he
      cases id with
      | nil => exact absurd rfl hh.1
      | cons a id =>
        cases id with
        | nil =>
          have h2 : u = 'x' :: c :: t := (List.cons.inj he).2
          exact absurd (by rw [h2]; rfl) hx2
        | cons b id =>
          have hb := hh.2 b (by simp)
          rw [(List.cons.inj (List.cons.inj he).2).1] at hb
          exact absurd hb (by decide)

theorem skipSomeSpaces {s : Str} (k : Nat) (h : CStr.peek s ≠ ' ') : skipCharSequence (List.replicate k ' ' ++ s) ' ' = .ok (k, s) := by
  unfold skipCharSequence
  rw [skipCharSequence_go (by decide) _ _ _ (by omega)]
  have := takeWhile_append_stop (p := (· == ' ')) (a := List.replicate k ' ') (b := s) (by
    intro c hc; rw [List.eq_of_mem_replicate hc]; rfl) (by simpa using h)
  rw [this.1, this.2, List.length_replicate, Nat.zero_add]

theorem ne_head {s p : Str} {c : Char} (hs : CStr.peek s ≠ c) : ∀ v, s ≠ (c :: p) ++ v := by
  rintro v rfl
  exact hs rfl

theorem optLwp_read {l : Str} {tid n : Nat} (h : LwpPart tid l n) {u : Str} (hu : ∀ v, u ≠ c!"(LWP " ++ v) :
    optLwp tid (l ++ u) = .ok (n, u) := by
  unfold optLwp
  cases h with
  | none =>
    rw [List.nil_append, lwp_other hu, Out.bind_ok]
    rfl
  | lwp he =>
    rw [List.append_assoc, List.append_assoc]
    show parseLwp (c!"(LWP " ++ (_ ++ ')' :: u)) >>= _ = _
    rw [lwp_read he, Out.bind_ok]
    rfl

theorem LwpPart.peek {l : Str} {tid n : Nat} (h : LwpPart tid l n) (u : Str) : CStr.peek (l ++ ')' :: u) = '(' ∨ CStr.peek (l ++ ')' :: u) = ')' := by
  cases h with
  | none => exact .inr rfl
  | lwp => exact .inl rfl

theorem id_stop {l u : Str} {tid n : Nat} (k : Nat) (h : LwpPart tid l n) :
    CStr.peek (List.replicate k ' ' ++ (l ++ ')' :: u)) ∈ c!" ()" := by
  cases k with
  | succ k => show ' ' ∈ _; decide
  | zero => rcases h.peek u with h | h <;> simp [h]

theorem section_read {p : Str} {tid n : Nat} (h : NamePart tid p n) {u : Str} (hu : ∀ v, u ≠ c!"(Thread " ++ v) :
    threadSection tid (p ++ u) = .ok (some (n, u)) := by
  unfold threadSection
  cases h with
  | none =>
    rw [List.nil_append, skipString_other hu]
    rfl
  | @name id l k _ hi hl =>
    simp only [List.append_assoc]
    rw [skipString_append, if_neg (by simp)]
    show skipThreadId (id ++ (List.replicate k ' ' ++ (l ++ ')' :: u))) >>= _ = _
    have hst := id_stop (u := u) k hl
    have h1 : ∀ c ∈ c!" ()", IsHex c = false := by decide
    obtain ⟨m, hm, hr⟩ := threadId_read hi (h1 _ hst) (by intro h; rw [h] at hst; exact absurd hst (by decide))
    rw [hr, Out.bind_ok]
    dsimp only
    rw [if_neg hm, skipSomeSpaces k (by rcases hl.peek u with h | h <;> rw [h] <;> decide), Out.bind_ok]
    dsimp only
    rw [optLwp_read hl (ne_head (s := ')' :: u) (show ')' ≠ '(' by decide)), Out.bind_ok]
    dsimp only
    rw [skipChar_cons (by decide), Out.bind_ok]
    rfl

theorem part_space {l p : Str} {tid n m : Nat} (h : LwpPart tid l n) (hp : NamePart n p m) (u : Str) :
    CStr.peek (l ++ (p ++ (c!":\n" ++ u))) ≠ ' ' := by
  cases h with
  | none =>
    cases hp with
    | none => exact (show ':' ≠ ' ' by decide)
    | name => exact (show '(' ≠ ' ' by decide)
  | lwp => exact (show '(' ≠ ' ' by decide)

theorem dec_not_space {ds u : Str} (h : Dec32 ds) : CStr.peek (ds ++ u) ≠ ' ' := by
  cases ds with
  | nil => exact absurd rfl h.1
  | cons c t =>
    intro he
    have hc : c = ' ' := he
    have := h.2.1 c (by simp)
    rw [hc] at this
    exact absurd this (by decide)

theorem header_read {h : Str} {number tid : Nat} (hh : ThreadHeader h number tid) (u : Str) :
    parseThread (h ++ u) = threadFrames number tid u := by
  cases hh with
  | @mk ds l p tid₁ tid k₁ k₂ hd hl hp =>
    simp only [List.append_assoc]
    unfold parseThread
    rw [skipString_append, if_neg (by simp)]
    dsimp only
    unfold threadHeader
    rw [skipSpaces k₁ (dec_not_space hd), Out.bind_ok]
    dsimp only
    rw [if_neg (by omega), parseUint32_digits hd.2.1 hd.1 hd.2.2 (dec_space _ _), Out.bind_ok]
    dsimp only
    rw [if_neg (by simpa using hd.1), skipSpaces k₂ (part_space hl hp _), Out.bind_ok]
    dsimp only
    rw [if_neg (by omega), optLwp_read hl, Out.bind_ok]
    · dsimp only
      rw [section_read hp (ne_head (s := c!":\n" ++ u) (show ':' ≠ '(' by decide)), Out.bind_ok]
      dsimp only
      rw [skipString_append, if_neg (by simp), Out.bind_ok]
      rfl
    · cases hp with
      | none => exact ne_head (s := c!":\n" ++ u) (show ':' ≠ '(' by decide)
      | name =>
        intro v hv
        exact absurd (List.cons.inj (List.cons.inj hv).2).1 (by decide)

/-! ## Frames and threads -/

theorem FrameText.head {f : GdbFrame} {s rest : Str} (h : FrameText f s rest) : ∃ t, s = '#' :: t := by
  cases h with
  | call => exact ⟨_, rfl⟩
  | signal => exact ⟨_, rfl⟩

theorem FramesText.head {fs : List GdbFrame} {t u : Str} (h : FramesText fs t u) : ∃ v, t = '#' :: v := by
  cases h with
  | last h => obtain ⟨t, rfl⟩ := h.head; exact ⟨_, rfl⟩
  | thread h => obtain ⟨t, rfl⟩ := h.head; exact ⟨_, rfl⟩
  | cons h => obtain ⟨t, rfl⟩ := h.head; exact ⟨_, rfl⟩

theorem FramesText.ne {fs : List GdbFrame} {t u : Str} (h : FramesText fs t u) : fs ≠ [] := by
  cases h <;> simp

theorem FramesText.len {fs : List GdbFrame} {t u : Str} (h : FramesText fs t u) : fs.length ≤ t.length := by
  induction h with
  | last h => obtain ⟨t, rfl⟩ := h.head; len
  | thread h => len
  | cons h hb hs ih => simp only [List.length_cons, List.length_append]; omega

theorem parseFrame_none {s : Str} (h : CStr.peek s ≠ '#') : parseFrame s = .ok none := by
  unfold parseFrame parseHeader frameStart
  rw [skipChar_not (by decide) h, Out.bind_ok]
  rfl

theorem frames_read {fs : List GdbFrame} {t u : Str} (h : FramesText fs t u) : ∀ n, fs.length < n → framesLoop n (t ++ u) = .ok (fs, u) := by
  induction h with
  | @last f s v h hb =>
    intro n hn
    obtain ⟨n, rfl⟩ : ∃ k, n = k + 2 := ⟨n - 2, by simp at hn; omega⟩
    rw [List.append_nil, framesLoop, C71_last_frame_read_partial h hb, Out.bind_ok]
    rfl
  | @thread f s v u h hb =>
    intro n hn
    obtain ⟨n, rfl⟩ : ∃ k, n = k + 2 := ⟨n - 2, by simp at hn; omega⟩
    rw [List.append_assoc, List.append_assoc]
    show framesLoop (n + 2) (s ++ (v ++ '\n' :: (c!"Thread" ++ u))) = _
    rw [framesLoop, C71_frame_read_partial h hb (.inr ⟨u, rfl⟩), Out.bind_ok]
    dsimp only
    rw [framesLoop, parseFrame_none (s := c!"Thread" ++ u) (show 'T' ≠ '#' by decide), Out.bind_ok]
    rfl
  | @cons f fs s v t u h hb hs ih =>
    intro n hn
    obtain ⟨n, rfl⟩ : ∃ k, n = k + 1 := ⟨n - 1, by omega⟩
    obtain ⟨w, hw⟩ := hs.head
    rw [List.append_assoc, List.append_assoc, List.cons_append, framesLoop,
      C71_frame_read_partial h hb (.inl ⟨w ++ u, by rw [hw]; rfl⟩), Out.bind_ok]
    dsimp only
    rw [ih n (by simp at hn; omega), Out.bind_ok]

theorem threadFrames_read {fs : List GdbFrame} {t u : Str} (h : FramesText fs t u) (number tid : Nat) :
    threadFrames number tid (t ++ u) = .ok (some ({ number, tid, frames := fs }, u)) := by
  unfold threadFrames
  rw [frames_read h _ (by have := h.len; rw [List.length_append]; omega), Out.bind_ok]
  dsimp only
  rw [if_neg h.ne]

/-- C72: a thread with its first line is read: its number, its id and its frames, all of them and in their order. -/
theorem C72_read_partial {h t u : Str} {number tid : Nat} {frames : List GdbFrame} (hh : ThreadHeader h number tid)
    (hf : FramesText frames t u) : parseThread (h ++ (t ++ u)) = .ok (some ({ number, tid, frames }, u)) := by
  rw [header_read hh, threadFrames_read hf]

/-- C72: frames without the first line of a thread are read as thread 0. -/
theorem C72_headerless_partial {t u : Str} {frames : List GdbFrame} (hf : FramesText frames t u) :
    parseThread (t ++ u) = .ok (some ({ number := 0, tid := 2 ^ 32 - 1, frames }, u)) := by
  unfold parseThread
  obtain ⟨v, hv⟩ := hf.head
  rw [skipString_other, if_pos rfl, threadFrames_read hf]
  intro w hw
  rw [hv] at hw
  exact absurd (List.cons.inj hw).1 (by decide)

theorem ThreadHeader.head {h : Str} {number tid : Nat} (hh : ThreadHeader h number tid) : ∃ t, h = c!"Thread " ++ t := by
  cases hh with
  | @mk ds l p tid₁ tid k₁ k₂ hd hl hp => exact ⟨List.replicate k₁ ' ' ++ (ds ++ (sp k₂ ++ (l ++ (p ++ c!":\n")))), rfl⟩

theorem ThreadsText.head {ts : List GdbThread} {t : Str} (h : ThreadsText ts t) : ∃ v, t = c!"Thread " ++ v := by
  cases h with
  | last hh => obtain ⟨v, rfl⟩ := hh.head; exact ⟨_, by rw [List.append_assoc]⟩
  | cons hh => obtain ⟨v, rfl⟩ := hh.head; exact ⟨_, by rw [List.append_assoc]⟩

theorem ThreadsText.ne {ts : List GdbThread} {t : Str} (h : ThreadsText ts t) : ts ≠ [] := by cases h <;> simp

theorem ThreadsText.len {ts : List GdbThread} {t : Str} (h : ThreadsText ts t) : ts.length ≤ t.length := by
  induction h with
  | last hh => obtain ⟨v, rfl⟩ := hh.head; len
  | cons hh hf hs ih => obtain ⟨v, rfl⟩ := hh.head; simp only [List.length_cons, List.length_append]; omega

theorem parseThread_nil : parseThread [] = .ok none := by decide +kernel

theorem threads_read {ts : List GdbThread} {t : Str} (h : ThreadsText ts t) : ∀ n, ts.length < n → threadsLoop n t = .ok (ts, []) := by
  induction h with
  | @last h t number tid frames hh hf =>
    intro n hn
    obtain ⟨n, rfl⟩ : ∃ k, n = k + 2 := ⟨n - 2, by simp at hn; omega⟩
    have := C72_read_partial hh hf
    rw [List.append_nil] at this
    rw [threadsLoop, this, Out.bind_ok]
    dsimp only
    rw [threadsLoop, parseThread_nil]
    rfl
  | @cons h t u number tid frames ts hh hf hs ih =>
    intro n hn
    obtain ⟨n, rfl⟩ : ∃ k, n = k + 1 := ⟨n - 1, by omega⟩
    rw [threadsLoop, C72_read_partial hh hf, Out.bind_ok]
    dsimp only
    rw [ih n (by simp at hn; omega), Out.bind_ok]

/-! ## Stack traces -/

/-- A text before the stack trace: no line of it, except for the first, begins like a frame or a thread. -/
def Preamble (p : Str) : Prop := ∀ a b, p ≠ a ++ (c!"\n#" ++ b) ∧ p ≠ a ++ (c!"\nThread " ++ b)

/-- The first occurrence of a word. -/
theorem strstrI_first {n p r : Str} (h : ∀ a b, p ++ (n ++ r) = a ++ (n ++ b) → p.length ≤ a.length) :
    strstrI n (p ++ (n ++ r)) = some p.length := by
  cases hi : strstrI n (p ++ (n ++ r)) with
  | none => exact absurd ⟨p, r, by simp⟩ (strstrI_none hi)
  | some i =>
    obtain ⟨⟨a, b, h1, h2⟩, h3⟩ := strstrI_some hi
    have e1 := h a b (by rw [h1]; simp)
    have e2 := h3 p r (by simp)
    have : i = p.length := by omega
    rw [this]

/-- An occurrence of a line that begins in the text before the stack trace is a line of that text. -/
theorem line_in {p w x a b : Str} (hw : '\n' ∉ w) (h : p ++ '\n' :: x = a ++ ('\n' :: (w ++ b))) :
    p.length ≤ a.length ∨ ∃ b', p = a ++ ('\n' :: (w ++ b')) := by
  rcases List.append_eq_append_iff.1 h with ⟨c, h1, h2⟩ | ⟨c, h1, h2⟩
  · left; rw [h1]; len
  · cases c with
    | nil => left; rw [h1]; len
    | cons d c =>
      right
      rw [List.cons_append, List.cons.injEq] at h2
      obtain ⟨t, ht, -⟩ := prefix_append h2.2.symm (show CStr.peek ('\n' :: x) ∉ w from hw)
      exact ⟨t, by rw [h1, ← h2.1, ht]⟩

theorem header_frame {p s v u : Str} {f : GdbFrame} (hp : Preamble p) (h : FrameText f s (v ++ '\n' :: u)) (hb : NoBreak (s ++ v))
    (hu : NextStart u) : parseTraceHeader (p ++ '\n' :: (s ++ (v ++ '\n' :: u))) = .ok (some (some f, u)) := by
  obtain ⟨s', hs⟩ := h.head
  have h1 : strstrI c!"\n#" (p ++ '\n' :: (s ++ (v ++ '\n' :: u))) = some p.length := by
    have e : p ++ '\n' :: (s ++ (v ++ '\n' :: u)) = p ++ (c!"\n#" ++ (s' ++ (v ++ '\n' :: u))) := by rw [hs]; rfl
    rw [e]
    refine strstrI_first fun a b hab => ?_
    rw [← e] at hab
    rcases line_in (w := c!"#") (by decide) hab with h | ⟨b', h⟩
    · exact h
    · exact absurd h (hp a b').1
  have hframe := C71_frame_read_partial h hb hu
  have hd : (p ++ '\n' :: (s ++ (v ++ '\n' :: u))).drop (p.length + 1) = s ++ (v ++ '\n' :: u) := by
    rw [show p ++ '\n' :: (s ++ (v ++ '\n' :: u)) = (p ++ c!"\n") ++ (s ++ (v ++ '\n' :: u)) by simp,
      show p.length + 1 = (p ++ c!"\n").length by len, List.drop_left]
  unfold parseTraceHeader
  rw [h1]
  cases ht : strstrI c!"\nThread " (p ++ '\n' :: (s ++ (v ++ '\n' :: u))) with
  | none =>
    dsimp only
    rw [hd, hframe, Out.bind_ok]
    rfl
  | some i =>
    dsimp only
    obtain ⟨⟨a, b, e1, e2⟩, -⟩ := strstrI_some ht
    have hi : p.length < i := by
      rw [List.append_assoc] at e1
      rcases line_in (w := c!"Thread ") (b := b) (by decide) (by simpa using e1) with h | ⟨b', h⟩
      · rcases Nat.lt_or_ge p.length a.length with h' | h'
        · omega
        · exfalso
          have := List.append_inj e1 (by omega)
          have h3 := (List.cons.inj this.2).2
          rw [hs] at h3
          exact absurd (List.cons.inj h3).1 (by decide)
      · exact absurd h (hp a b').2
    rw [if_pos (by omega), hd, hframe, Out.bind_ok]
    rfl

/-- C73: a stack trace with a crash frame and threads is read: the crash frame, and all threads in their order. -/
theorem C73_read_partial {p s v t : Str} {f : GdbFrame} {ts : List GdbThread} {libs : List Sharedlib} (hp : Preamble p)
    (hf : FrameText f s (v ++ '\n' :: t)) (hb : NoBreak (s ++ v)) (ht : ThreadsText ts t)
    (hl : parseLibs (p ++ '\n' :: (s ++ (v ++ '\n' :: t))) = .ok libs) :
    parseTrace (p ++ '\n' :: (s ++ (v ++ '\n' :: t))) =
      .ok (some ({ threads := ts, crash := some f, libs, crashTid := 2 ^ 32 - 1 }, [])) := by
  unfold parseTrace
  obtain ⟨w, hw⟩ := ht.head
  rw [hl, Out.bind_ok, header_frame hp hf hb (.inr ⟨' ' :: w, by rw [hw]; rfl⟩), Out.bind_ok]
  dsimp only
  rw [threads_read ht _ (by have := ht.len; omega), Out.bind_ok]
  dsimp only
  rw [if_neg ht.ne]

/-- C73: a stack trace without a crash frame before the threads is read; the crash frame is missing. -/
theorem C73_threads_partial {p t : Str} {ts : List GdbThread} {libs : List Sharedlib} (hp : Preamble p) (ht : ThreadsText ts t)
    (hl : parseLibs (p ++ '\n' :: t) = .ok libs) :
    parseTrace (p ++ '\n' :: t) = .ok (some ({ threads := ts, crash := none, libs, crashTid := 2 ^ 32 - 1 }, [])) := by
  obtain ⟨w, hw⟩ := ht.head
  have h1 : strstrI c!"\nThread " (p ++ '\n' :: t) = some p.length := by
    have e : p ++ '\n' :: t = p ++ (c!"\nThread " ++ w) := by rw [hw]; rfl
    rw [e]
    refine strstrI_first fun a b hab => ?_
    rw [← e] at hab
    rcases line_in (w := c!"Thread ") (by decide) hab with h | ⟨b', h⟩
    · exact h
    · exact absurd h (hp a b').2
  have hd : (p ++ '\n' :: t).drop (p.length + 1) = t := by
    rw [show p ++ '\n' :: t = (p ++ c!"\n") ++ t by simp, show p.length + 1 = (p ++ c!"\n").length by len, List.drop_left]
  have hh : parseTraceHeader (p ++ '\n' :: t) = .ok (some (none, t)) := by
    unfold parseTraceHeader
    rw [h1]
    cases hf : strstrI c!"\n#" (p ++ '\n' :: t) with
    | none => dsimp only; rw [hd]
    | some i =>
      dsimp only
      obtain ⟨⟨a, b, e1, e2⟩, -⟩ := strstrI_some hf
      have hi : p.length ≤ i := by
        rw [List.append_assoc] at e1
        rcases line_in (w := c!"#") (b := b) (by decide) (by simpa using e1) with h | ⟨b', h⟩
        · omega
        · exact absurd h (hp a b').1
      rw [if_neg (by omega), hd]
  unfold parseTrace
  rw [hl, Out.bind_ok, hh, Out.bind_ok]
  dsimp only
  rw [threads_read ht _ (by have := ht.len; omega), Out.bind_ok]
  dsimp only
  rw [if_neg ht.ne]

/-- C73: frames without threads are read as thread 0, but the first one is taken as the crash frame only, and the thread begins
with the second one. -/
theorem C73_headerless_partial {p s v t : Str} {f : GdbFrame} {fs : List GdbFrame} {libs : List Sharedlib} (hp : Preamble p)
    (hf : FrameText f s (v ++ '\n' :: t)) (hb : NoBreak (s ++ v)) (ht : FramesText fs t [])
    (hl : parseLibs (p ++ '\n' :: (s ++ (v ++ '\n' :: t))) = .ok libs) :
    parseTrace (p ++ '\n' :: (s ++ (v ++ '\n' :: t))) =
      .ok (some ({ threads := [{ number := 0, tid := 2 ^ 32 - 1, frames := fs }], crash := some f, libs, crashTid := 2 ^ 32 - 1 }, [])) := by
  obtain ⟨w, hw⟩ := ht.head
  have hthread := C72_headerless_partial ht
  rw [List.append_nil] at hthread
  unfold parseTrace
  rw [hl, Out.bind_ok, header_frame hp hf hb (.inl ⟨w, hw⟩), Out.bind_ok]
  dsimp only
  have : threadsLoop (t.length + 1) t = .ok ([{ number := 0, tid := 2 ^ 32 - 1, frames := fs }], []) := by
    rw [threadsLoop, hthread, Out.bind_ok]
    dsimp only
    obtain ⟨k, hk⟩ : ∃ k, t.length = k + 1 := ⟨t.length - 1, by rw [hw]; len⟩
    rw [hk, threadsLoop, parseThread_nil]
    rfl
  rw [this, Out.bind_ok]
  rfl

/-! ## What is read stands in the text -/

/-- Frames one after another in a text. -/
inductive Follows : Str → List GdbFrame → Str → Prop
  | nil {s : Str} : Follows s [] s
  | cons {s a t rest u : Str} {f : GdbFrame} {fs : List GdbFrame} (hf : HeaderReads s f u) (hs : s = a ++ t) (ht : Follows t fs rest) :
      Follows s (f :: fs) rest

theorem findNext_cases : ∀ s : Str, ∃ a, s = a ++ findNext s ∧ (findNext s = [] ∨ CStr.peek (findNext s) = '\n')
  | [] => ⟨[], rfl, .inl rfl⟩
  | c :: s => by
    rw [findNext]
    split
    · rename_i h
      refine ⟨[], rfl, .inr ?_⟩
      rcases h with h | h
      · obtain ⟨t, ht⟩ := (startsWith_split _ _).1 h
        rw [ht]; rfl
      · obtain ⟨t, ht⟩ := (startsWith_split _ _).1 h
        rw [ht]; rfl
    · obtain ⟨a, h1, h2⟩ := findNext_cases s
      exact ⟨c :: a, by rw [List.cons_append, ← h1], h2⟩

/-- After a frame the rest is shorter. -/
theorem parseFrame_rest (s : Str) : Post (parseFrame s) fun o => ∀ r, o = some r → ∃ a, a ≠ [] ∧ s = a ++ r.2 := by
  intro o ho r hr
  subst hr
  obtain ⟨u, hu⟩ := C71_frame_sound s r.2 r.1 ho
  have hne : s ≠ [] := by cases hu with
    | signal ds k hs => rw [hs]; simp
    | call ds k before body loc nt hs => rw [hs]; simp
  obtain ⟨a, h1, h2⟩ := findNext_cases s
  revert ho
  unfold parseFrame
  cases hh : parseHeader s with
  | abort => intro ho; cases ho
  | ub => intro ho; cases ho
  | ok q =>
    rw [Out.bind_ok]
    cases q with
    | none => intro ho; cases ho
    | some q =>
      dsimp only
      rcases h2 with h2 | h2
      · rw [h2]
        intro ho
        cases ho
        exact ⟨s, hne, by simp⟩
      · obtain ⟨t, ht⟩ := peek_split h2 (by decide)
        rw [ht, peek_cons, if_neg (by decide)]
        intro ho
        cases ho
        exact ⟨a ++ c!"\n", by simp, by rw [h1, ht]; simp⟩

theorem frames_sound : ∀ (n : Nat) (s : Str), Post (framesLoop n s) fun r => Follows s r.1 r.2
  | 0, _ => .ub
  | n + 1, s => by
    rw [framesLoop]
    refine Post.bind (P := fun o => ∀ r, o = some r → (∃ a, a ≠ [] ∧ s = a ++ r.2) ∧ ∃ u, HeaderReads s r.1 u) ?_ fun o ho => ?_
    · rintro o ho r rfl
      exact ⟨parseFrame_rest s _ ho r rfl, C71_frame_sound s r.2 r.1 ho⟩
    · cases o with
      | none => exact .ok .nil
      | some r =>
        obtain ⟨⟨a, -, ha⟩, u, hu⟩ := ho r rfl
        exact (frames_sound n r.2).bind fun q hq => .ok (.cons hu ha hq)

theorem lwp_yields (tid : Nat) (s : Str) : Yields (optLwp tid s) fun r => ∃ l, s = l ++ r.2 ∧ LwpPart tid l r.1 := by
  have hn : Yields (Out.ok (Option.getD (none : Option (Nat × Str)) (tid, s))) fun r => ∃ l, s = l ++ r.2 ∧ LwpPart tid l r.1 :=
    .ok ⟨[], rfl, .none⟩
  unfold optLwp parseLwp
  rcases skipString_cases s c!"(LWP " with ⟨b, hb, hs⟩ | hs
  · rw [hs, if_neg (by simp)]
    dsimp only
    rcases uint32_full b with ⟨ds, u, hu, hd, h⟩ | h
    · rw [h, Out.bind_ok]
      dsimp only
      rw [if_neg (by simpa using hd.1)]
      by_cases hc : CStr.peek u = ')'
      · obtain ⟨t, rfl⟩ := peek_split hc (by decide)
        rw [skipChar_cons (by decide), Out.bind_ok, Out.bind_ok]
        exact .ok ⟨c!"(LWP " ++ (ds ++ c!")"), by rw [hb, hu]; simp, .lwp hd⟩
      · rw [skipChar_not (by decide) hc, Out.bind_ok, Out.bind_ok]
        exact hn
    · rw [h, Out.bind_ok]
      exact hn
  · rw [hs]
    exact hn

theorem id_yields (s : Str) : Yields (skipThreadId s) fun r => r.1 ≠ 0 → ∃ id, s = id ++ r.2 ∧ ThreadId id := by
  unfold skipThreadId
  by_cases h : ∃ c t, s = '0' :: 'x' :: c :: t ∧ IsHex c = true
  · obtain ⟨c, t, rfl, hc⟩ := h
    have e : '0' :: 'x' :: c :: t = c!"0x" ++ ((c :: t).takeWhile IsHex ++ (c :: t).dropWhile IsHex) := by
      rw [List.takeWhile_append_dropWhile]; rfl
    have hh : (c :: t).takeWhile IsHex ≠ [] ∧ ∀ x ∈ (c :: t).takeWhile IsHex, IsHex x = true :=
      ⟨by rw [List.takeWhile_cons, hc]; simp, fun x hx => List.mem_takeWhile_imp hx⟩
    rw [e, skipHex_read hh (dropWhile_peek (by decide) _), Out.bind_ok]
    dsimp only
    rw [if_neg (by omega)]
    exact .ok fun _ => ⟨_, by dsimp only; rw [List.append_assoc], .hex hh⟩
  · rw [skipHex_other, Out.bind_ok]
    · dsimp only
      rw [if_pos rfl, skipCharSpan_eq, span10]
      refine .ok fun h0 => ⟨s.takeWhile IsDec, by dsimp only; rw [List.takeWhile_append_dropWhile], .dec ⟨?_, fun x hx => List.mem_takeWhile_imp hx⟩⟩
      intro he
      exact h0 (by rw [he]; rfl)
    · intro c t he
      cases hc : IsHex c with
      | false => rfl
      | true => exact absurd ⟨c, t, he, hc⟩ h

theorem section_yields (tid : Nat) (s : Str) : Yields (threadSection tid s) fun o => ∀ r, o = some r → ∃ p, s = p ++ r.2 ∧ NamePart tid p r.1 := by
  unfold threadSection
  rcases skipString_cases s c!"(Thread " with ⟨b, hb, hs⟩ | hs
  · rw [hs, if_neg (by simp)]
    dsimp only
    refine (id_yields b).bind fun d hd => ?_
    refine Yields.ite (fun _ => .ok (by rintro _ ⟨⟩)) fun h0 => ?_
    obtain ⟨id, hid, hid2⟩ := hd h0
    refine (skipCharSequence_yields d.2 (by decide)).bind fun w hw => ?_
    refine (lwp_yields tid w.2).bind fun l hl => ?_
    obtain ⟨x, hx, hx2⟩ := hl
    by_cases hc : CStr.peek l.2 = ')'
    · obtain ⟨t, ht⟩ := peek_split hc (by decide)
      rw [ht, skipChar_cons (by decide), Out.bind_ok]
      refine .ok ?_
      rintro _ ⟨⟩
      refine ⟨_, ?_, .name (k := w.1) hid2 hx2⟩
      rw [hb, hid, hw, hx, ht]
      simp
    · rw [skipChar_not (by decide) hc, Out.bind_ok]
      refine .ok ?_
      rintro _ ⟨⟩
  · rw [hs]
    refine .ok ?_
    rintro _ ⟨⟩
    exact ⟨[], rfl, .none⟩

theorem header_yields (s : Str) : Yields (threadHeader s) fun o => ∀ q, o = some q →
    ∃ h, c!"Thread" ++ s = h ++ q.2.2 ∧ ThreadHeader h q.1 q.2.1 := by
  unfold threadHeader
  refine (skipCharSequence_yields s (by decide)).bind fun w hw => ?_
  refine Yields.ite (fun _ => .ok (by rintro _ ⟨⟩)) fun h0 => ?_
  rcases uint32_full w.2 with ⟨ds, u, hu, hd, h⟩ | h
  · rw [h, Out.bind_ok]
    dsimp only
    rw [if_neg (by simpa using hd.1)]
    refine (skipCharSequence_yields u (by decide)).bind fun w2 hw2 => ?_
    refine Yields.ite (fun _ => .ok (by rintro _ ⟨⟩)) fun h1 => ?_
    refine (lwp_yields _ w2.2).bind fun l hl => ?_
    obtain ⟨x, hx, hx2⟩ := hl
    refine (section_yields l.1 l.2).bind fun o ho => ?_
    cases o with
    | none => exact .ok (by rintro _ ⟨⟩)
    | some r =>
      obtain ⟨p, hp, hp2⟩ := ho r rfl
      obtain ⟨tid, v⟩ := r
      dsimp only at hp hp2 ⊢
      rcases skipString_cases v c!":\n" with ⟨y, hy, hs⟩ | hs
      · rw [hs, if_neg (by simp)]
        refine .ok ?_
        rintro _ ⟨⟩
        have e1 : List.replicate w.1 ' ' = sp (w.1 - 1) := by
          unfold sp; rw [show w.1 = w.1 - 1 + 1 by omega]; rfl
        have e2 : List.replicate w2.1 ' ' = sp (w2.1 - 1) := by
          unfold sp; rw [show w2.1 = w2.1 - 1 + 1 by omega]; rfl
        refine ⟨_, ?_, .mk (k₁ := w.1 - 1) (k₂ := w2.1 - 1) hd hx2 hp2⟩
        rw [hw, hu, hw2, hx, hp, hy, e1, e2]
        simp
      · rw [hs]
        exact .ok (by rintro _ ⟨⟩)
  · rw [h, Out.bind_ok]
    exact .ok (by rintro _ ⟨⟩)

theorem threadFrames_sound (number tid : Nat) (b : Str) : Post (threadFrames number tid b) fun o => ∀ r, o = some r →
    r.1.number = number ∧ r.1.tid = tid ∧ r.1.frames ≠ [] ∧ Follows b r.1.frames r.2 := by
  unfold threadFrames
  refine (frames_sound _ b).bind fun r hr => .ok ?_
  split
  · rintro _ ⟨⟩
  · rename_i h0
    rintro _ ⟨⟩
    exact ⟨rfl, rfl, h0, hr⟩

/-- A thread stands in a text: its first line, or nothing and the number is 0, and then its frames one after another, at least
one. -/
def ThreadStands (s : Str) (t : GdbThread) (rest : Str) : Prop :=
  ∃ a b, s = a ++ b ∧ (ThreadHeader a t.number t.tid ∨ a = [] ∧ t.number = 0 ∧ t.tid = 2 ^ 32 - 1) ∧ t.frames ≠ [] ∧
    Follows b t.frames rest

/-- C72: whatever text is given, a thread that is returned stands in the text. -/
theorem C72_sound (s rest : Str) (t : GdbThread) (h : parseThread s = .ok (some (t, rest))) : ThreadStands s t rest := by
  unfold parseThread at h
  rcases skipString_cases s c!"Thread" with ⟨b, hb, hs⟩ | hs
  · rw [hs, if_neg (by simp)] at h
    dsimp only at h
    obtain ⟨o, ho, ho2⟩ := header_yields b
    rw [ho, Out.bind_ok] at h
    cases o with
    | none => cases h
    | some q =>
      obtain ⟨a, ha, ha2⟩ := ho2 q rfl
      obtain ⟨e1, e2, e3, e4⟩ := threadFrames_sound _ _ _ _ h _ rfl
      exact ⟨a, q.2.2, by rw [hb, ha], .inl (by rw [e1, e2]; exact ha2), e3, e4⟩
  · rw [hs, if_pos rfl] at h
    obtain ⟨e1, e2, e3, e4⟩ := threadFrames_sound _ _ _ _ h _ rfl
    exact ⟨[], s, rfl, .inr ⟨rfl, e1, e2⟩, e3, e4⟩

/-- Threads one after another in a text. -/
inductive ThreadsFollow : Str → List GdbThread → Str → Prop
  | nil {s : Str} : ThreadsFollow s [] s
  | cons {s u rest : Str} {t : GdbThread} {ts : List GdbThread} (ht : ThreadStands s t u) (hs : ThreadsFollow u ts rest) :
      ThreadsFollow s (t :: ts) rest

theorem threads_sound : ∀ (n : Nat) (s : Str), Post (threadsLoop n s) fun r => ThreadsFollow s r.1 r.2
  | 0, _ => .ub
  | n + 1, s => by
    rw [threadsLoop]
    refine Post.bind (P := fun o => ∀ r, o = some r → ThreadStands s r.1 r.2) ?_ fun o ho => ?_
    · rintro o ho r rfl
      exact C72_sound s r.2 r.1 ho
    · cases o with
      | none => exact .ok .nil
      | some r => exact (threads_sound n r.2).bind fun q hq => .ok (.cons (ho r rfl) hq)

/-- The crash frame stands at the beginning of a line of the text before the threads; without one the text of the threads begins
at a line. -/
def CrashStands (s : Str) (crash : Option GdbFrame) (threads : Str) : Prop :=
  ∃ p b, s = p ++ '\n' :: b ∧ match crash with
    | none => threads = b
    | some f => ∃ a u, b = a ++ threads ∧ HeaderReads b f u

theorem drop_line {s n a b : Str} {i : Nat} (h1 : a ++ '\n' :: n ++ b = s) (h2 : a.length = i) : s = a ++ '\n' :: s.drop (i + 1) := by
  rw [← h1, ← h2, show a ++ '\n' :: n ++ b = (a ++ c!"\n") ++ (n ++ b) by simp, show a.length + 1 = (a ++ c!"\n").length by len,
    List.drop_left]
  simp

theorem crash_frame {s t : Str} (p : Str) (hs : s = p ++ '\n' :: t) : Post (parseFrame t >>= fun r => Out.ok (r.map fun q => (some q.1, q.2)))
    fun o => ∀ r, o = some r → CrashStands s r.1 r.2 := by
  cases h : parseFrame t with
  | abort => exact .abort
  | ub => exact .ub
  | ok o =>
    rw [Out.bind_ok]
    refine .ok fun r hr => ?_
    cases o with
    | none => cases hr
    | some q =>
      cases hr
      obtain ⟨a, -, ha⟩ := parseFrame_rest t _ h q rfl
      obtain ⟨u, hu⟩ := C71_frame_sound t q.2 q.1 h
      exact ⟨p, t, hs, a, u, ha, hu⟩

theorem traceHeader_sound (s : Str) : Post (parseTraceHeader s) fun o => ∀ r, o = some r → CrashStands s r.1 r.2 := by
  have line : ∀ {n : Str} {i : Nat}, strstrI ('\n' :: n) s = some i → ∃ p, s = p ++ '\n' :: s.drop (i + 1) := by
    intro n i hi
    obtain ⟨⟨a, b, h1, h2⟩, -⟩ := strstrI_some hi
    exact ⟨a, drop_line h1.symm h2⟩
  unfold parseTraceHeader
  cases ht : strstrI c!"\nThread " s with
  | none =>
    cases hf : strstrI c!"\n#" s with
    | none => exact .ok (by rintro _ ⟨⟩)
    | some f =>
      obtain ⟨p, hp⟩ := line hf
      exact crash_frame p hp
  | some t =>
    obtain ⟨p, hp⟩ := line ht
    have hn : Post (Out.ok (some ((none : Option GdbFrame), s.drop (t + 1)))) fun o => ∀ r, o = some r → CrashStands s r.1 r.2 := by
      refine .ok ?_
      rintro _ ⟨⟩
      exact ⟨p, _, hp, rfl⟩
    cases hf : strstrI c!"\n#" s with
    | none => exact hn
    | some f =>
      obtain ⟨p, hp⟩ := line hf
      dsimp only
      exact Post.ite (fun _ => crash_frame p hp) fun _ => hn

/-- C73: whatever text is given, the crash frame and the threads of a stack trace that is returned stand in the text one after
another, there is at least one thread, and the shared libraries are those of the same text. -/
theorem C73_sound (s rest : Str) (tr : GdbTrace) (h : parseTrace s = .ok (some (tr, rest))) :
    tr.threads ≠ [] ∧ (∃ t, CrashStands s tr.crash t ∧ ThreadsFollow t tr.threads rest) ∧ parseLibs s = .ok tr.libs ∧
      tr.crashTid = 2 ^ 32 - 1 := by
  revert h
  unfold parseTrace
  cases hl : parseLibs s with
  | abort => intro h; cases h
  | ub => intro h; cases h
  | ok libs =>
    rw [Out.bind_ok]
    intro h
    refine Post.bind (Q := fun o => ∀ r, o = some r → r.1.threads ≠ [] ∧ (∃ t, CrashStands s r.1.crash t ∧ ThreadsFollow t r.1.threads r.2) ∧
      Out.ok libs = .ok r.1.libs ∧ r.1.crashTid = 2 ^ 32 - 1) (traceHeader_sound s) (fun o ho => ?_) _ h _ rfl
    cases o with
    | none => exact .ok (by rintro _ ⟨⟩)
    | some q =>
      obtain ⟨crash, t⟩ := q
      refine (threads_sound _ t).bind fun r hr => .ok ?_
      split
      · rintro _ ⟨⟩
      · rename_i h0
        rintro _ ⟨⟩
        exact ⟨h0, ⟨t, ho _ rfl, hr⟩, rfl, rfl⟩

/-! ## The text is not left -/

theorem frames_fine : ∀ (n : Nat) (s : Str), s = [] ∨ EndsNl s → s.length < n →
    Yields (framesLoop n s) fun r => (∃ a, s = a ++ r.2) ∧ (r.1 ≠ [] → r.2.length < s.length)
  | 0, s, _, h => by omega
  | n + 1, s, hs, h => by
    rw [framesLoop]
    rcases hs with rfl | hs
    · rw [parseFrame_none (by decide)]
      exact .ok ⟨⟨[], rfl⟩, fun h => absurd rfl h⟩
    · obtain ⟨o, ho⟩ := C56_gdb_frame_partial _ hs
      have hr := parseFrame_rest s
      rw [ho] at hr ⊢
      rw [Out.bind_ok]
      cases o with
      | none => exact .ok ⟨⟨[], rfl⟩, fun h => absurd rfl h⟩
      | some r =>
        obtain ⟨a, ha, hs2⟩ := hr _ rfl r rfl
        have hl := congrArg List.length hs2
        rw [List.length_append] at hl
        have := List.length_pos_iff.2 ha
        refine (frames_fine n r.2 (EndsNl.suffix (hs2 ▸ hs)) (by omega)).bind fun q hq => .ok ?_
        obtain ⟨⟨b, hb⟩, -⟩ := hq
        refine ⟨⟨a ++ b, by dsimp only; rw [List.append_assoc, ← hb, ← hs2]⟩, fun _ => ?_⟩
        have hl2 := congrArg List.length hb
        rw [List.length_append] at hl2
        dsimp only
        omega

theorem threadFrames_fine (number tid : Nat) {s : Str} (hs : s = [] ∨ EndsNl s) :
    Yields (threadFrames number tid s) fun o => ∀ r, o = some r → (∃ a, s = a ++ r.2) ∧ r.2.length < s.length := by
  unfold threadFrames
  refine (frames_fine _ s hs (by omega)).bind fun r hr => .ok ?_
  split
  · rintro _ ⟨⟩
  · rename_i h0
    rintro _ ⟨⟩
    exact ⟨hr.1, hr.2 h0⟩

theorem thread_fine {s : Str} (hs : s = [] ∨ EndsNl s) :
    Yields (parseThread s) fun o => ∀ r, o = some r → (∃ a, s = a ++ r.2) ∧ r.2.length < s.length := by
  unfold parseThread
  refine Yields.ite (fun _ => threadFrames_fine _ _ hs) fun h0 => ?_
  obtain ⟨b, hb, hb2⟩ := skipString_pos s c!"Thread" h0
  rw [hb2]
  refine (header_yields b).bind fun o ho => ?_
  cases o with
  | none => exact .ok (by rintro _ ⟨⟩)
  | some q =>
    obtain ⟨a, ha, -⟩ := ho q rfl
    rw [← hb] at ha
    obtain ⟨number, tid, u⟩ := q
    dsimp only at ha ⊢
    have hu : u = [] ∨ EndsNl u := by
      rcases hs with rfl | hs
      · exact absurd hb (by simp)
      · exact EndsNl.suffix (ha ▸ hs)
    refine (threadFrames_fine number tid hu).mono fun o ho r hr => ?_
    obtain ⟨⟨c, hc⟩, hl⟩ := ho r hr
    exact ⟨⟨a ++ c, by rw [ha, hc]; simp⟩, by rw [ha, List.length_append]; omega⟩

theorem threads_fine : ∀ (n : Nat) (s : Str), s = [] ∨ EndsNl s → s.length < n → Fine (threadsLoop n s)
  | 0, s, _, h => by omega
  | n + 1, s, hs, h => by
    rw [threadsLoop]
    obtain ⟨o, ho, hr⟩ := thread_fine hs
    rw [ho, Out.bind_ok]
    cases o with
    | none => exact .ok _
    | some r =>
      obtain ⟨⟨a, ha⟩, hl⟩ := hr r rfl
      refine (threads_fine n r.2 ?_ (by omega)).bind fun q _ => .ok _
      rcases hs with rfl | hs
      · exact absurd hl (by simp)
      · exact EndsNl.suffix (ha ▸ hs)

/-- C56: reading of a thread from a text that ends with a line break does not leave the text, and ends. -/
theorem C56_gdb_thread_partial {s : Str} (hs : EndsNl s) : Fine (parseThread s) := (thread_fine (.inr hs)).fine

/-- C56: reading of a stack trace from a text that ends with a line break does not leave the text, and ends, if reading of the
list of shared libraries does not (`C56_not_sharedlib`). -/
theorem C56_gdb_trace_partial {s : Str} (hs : EndsNl s) (hl : Fine (parseLibs s)) : Fine (parseTrace s) := by
  have suffix : ∀ k, s.drop k = [] ∨ EndsNl (s.drop k) := fun k =>
    EndsNl.suffix (a := s.take k) (by rw [List.take_append_drop]; exact hs)
  have frame : ∀ k, Fine (parseFrame (s.drop k)) := by
    intro k
    rcases suffix k with h | h
    · rw [h]; exact ⟨_, parseFrame_none (by decide)⟩
    · exact C56_gdb_frame_partial _ h
  have head : Fine (parseTraceHeader s) := by
    unfold parseTraceHeader
    split
    · exact Fine.ite (fun _ => (frame _).bind fun _ _ => .ok _) fun _ => .ok _
    · exact .ok _
    · exact (frame _).bind fun _ _ => .ok _
    · exact .ok _
  unfold parseTrace
  refine hl.bind fun libs _ => ?_
  refine head.bind fun o ho => ?_
  cases o with
  | none => exact .ok _
  | some q =>
    obtain ⟨crash, t⟩ := q
    refine (threads_fine _ t ?_ (by omega)).bind fun r _ => .ok _
    obtain ⟨p, b, hb, hm⟩ := traceHeader_sound s _ ho _ rfl
    have hb2 : b = [] ∨ EndsNl b := EndsNl.suffix (a := p ++ c!"\n") (by rw [hb] at hs; simpa using hs)
    cases crash with
    | none => rw [show t = b from hm]; exact hb2
    | some f =>
      obtain ⟨a, u, ha, -⟩ := hm
      rcases hb2 with rfl | hb2
      · exact .inl (List.append_eq_nil_iff.1 ha.symm).2
      · exact EndsNl.suffix (ha ▸ hb2)

/-! ## What is not read -/

/-- A frame as gdb prints it, for the examples. -/
def exampleFrame (number : Nat) (name file : Str) (line : Nat) : GdbFrame :=
  { newFrame with number, functionName := some name, sourceFile := some file, sourceLine := line }

theorem noBreak_of {s : Str} (h1 : strstrHas s c!"\n#" = false) (h2 : strstrHas s c!"\nThread" = false) : NoBreak s := by
  intro a b
  constructor
  · rintro rfl
    rw [(strstrHas_iff _ _).2 ⟨a, b, by simp⟩] at h1
    cases h1
  · rintro rfl
    rw [(strstrHas_iff _ _).2 ⟨a, b, by simp⟩] at h2
    cases h2

theorem example_frame (rest : Str) (h : CStr.peek rest = '\n') : FrameText (exampleFrame 0 c!"f" c!"a.c" 1) c!"#0  f () at a.c:1" rest :=
  FrameText.call (ds := c!"0") (k := 1) (addr := []) (fn := c!"f") (w := c!" ") (a := []) (loc := c!" at a.c:1") (by decide) (by decide)
    (.none (by intro v h; exact absurd (List.cons.inj h).1 (by decide))) (.plain (Name.chars (a := c!"f") .nil (by decide)) (.inl (by decide))) (.inl rfl) .nil (by
      intro x y h
      have := congrArg List.length h
      simp at this
      omega)
    (.line (w := c!" ") (kw := c!"at") (k := 0) (name := c!"a.c") (ds := c!"1") (by decide) (.inl rfl) (by decide)
      (.inr ⟨fun h => absurd ((sourceName_none _).2 h) (by decide), rfl⟩) (by decide) (by decide) (by rw [h]; decide))

example : ThreadsText [{ number := 2, tid := 5, frames := [exampleFrame 0 c!"f" c!"a.c" 1, { newFrame with number := 1, signalHandlerCalled := true }] },
      { number := 1, tid := 2 ^ 32 - 1, frames := [exampleFrame 0 c!"f" c!"a.c" 1] }]
    c!"Thread 2 (Thread 0xa (LWP 5)):\n#0  f () at a.c:1\n  i = 1\n#1  <signal handler called>\n\nThread 1 (Thread 7):\n#0  f () at a.c:1\n" := by
  refine ThreadsText.cons (h := c!"Thread 2 (Thread 0xa (LWP 5)):\n") (t := c!"#0  f () at a.c:1\n  i = 1\n#1  <signal handler called>\n\n")
    (.mk (ds := c!"2") (l := []) (k₁ := 0) (k₂ := 0) (by decide) .none
      (.name (id := c!"0xa") (l := c!"(LWP 5)") (k := 1) (.hex (hs := c!"a") (by decide)) (.lwp (es := c!"5") (by decide))))
    (.cons (s := c!"#0  f () at a.c:1") (v := c!"\n  i = 1") (example_frame _ rfl) (noBreak_of (by decide) (by decide))
      (.thread (s := c!"#1  <signal handler called>") (v := c!"\n") (.signal (ds := c!"1") (k := 1) (by decide) (by decide)) (noBreak_of (by decide) (by decide))))
    (.last (h := c!"Thread 1 (Thread 7):\n")
      (.mk (ds := c!"1") (l := []) (k₁ := 0) (k₂ := 0) (by decide) .none (.name (id := c!"7") (l := []) (k := 0) (.dec (by decide)) .none))
      (.last (s := c!"#0  f () at a.c:1") (v := c!"\n") (example_frame _ rfl) (noBreak_of (by decide) (by decide))))

theorem preamble_of {s : Str} (h1 : strstrHas s c!"\n#" = false) (h2 : strstrHas s c!"\nThread " = false) : Preamble s := by
  intro a b
  constructor
  · rintro rfl
    rw [(strstrHas_iff _ _).2 ⟨a, b, by simp⟩] at h1
    cases h1
  · rintro rfl
    rw [(strstrHas_iff _ _).2 ⟨a, b, by simp⟩] at h2
    cases h2

example : Preamble c!"[New Thread 5]\nCore was generated by `x'." := preamble_of (by decide) (by decide)

example : EndsNl c!"\nThread 1 (LWP 5):\n#0  f () at a.c:1\n" ∧ Fine (parseLibs c!"\nThread 1 (LWP 5):\n#0  f () at a.c:1\n") :=
  ⟨by decide, [], by decide +kernel⟩

/-- The text of `C73_read_partial`, read by the model. -/
example : parseTrace c!"\n#0  f () at a.c:1\nThread 2 (Thread 0xa (LWP 5)):\n#0  f () at a.c:1\n" =
    .ok (some ({ threads := [{ number := 2, tid := 5, frames := [exampleFrame 0 c!"f" c!"a.c" 1] }],
                 crash := some (exampleFrame 0 c!"f" c!"a.c" 1), libs := [], crashTid := 2 ^ 32 - 1 }, [])) := by decide +kernel

/-- C73 is false of texts without threads: the first frame is not a frame of any thread. -/
theorem C73_not_first_frame : parseTrace c!"\n#0  f () at a.c:1\n#1  g () at b.c:2\n" =
    .ok (some ({ threads := [{ number := 0, tid := 2 ^ 32 - 1, frames := [exampleFrame 1 c!"g" c!"b.c" 2] }],
                 crash := some (exampleFrame 0 c!"f" c!"a.c" 1), libs := [], crashTid := 2 ^ 32 - 1 }, [])) := by
  decide +kernel

/-- C73: a text with a single frame is rejected, as no frame is left for a thread. -/
theorem C73_not_single_frame : parseTrace c!"\n#0  f () at a.c:1\n" = .ok none := by decide +kernel

/-- C73: a text that begins with the first thread, without a line before it, is rejected. -/
theorem C73_not_first_line : parseTrace c!"Thread 1 (LWP 5):\n#0  f () at a.c:1\n" = .ok none := by decide +kernel

/-- C73: the frames and the threads after a frame that is not understood are dropped without an error. -/
theorem C73_not_all_threads :
    parseTrace c!"\nThread 2 (LWP 5):\n#0  f () at a.c:1\n#1  g\n#2  h () at a.c:3\n\nThread 1 (LWP 6):\n#0  k () at a.c:1\n" =
      .ok (some ({ threads := [{ number := 2, tid := 5, frames := [exampleFrame 0 c!"f" c!"a.c" 1] }], crash := none, libs := [],
                   crashTid := 2 ^ 32 - 1 }, c!"#1  g\n#2  h () at a.c:3\n\nThread 1 (LWP 6):\n#0  k () at a.c:1\n")) := by
  decide +kernel

/-- C72: the name of a thread that newer versions of gdb print is not understood. -/
theorem C72_not_named : parseThread c!"Thread 1 (Thread 0x7f (LWP 5) \"bash\"):\n#0  f () at a.c:1\n" = .ok none := by decide +kernel

/-- C72: `Thread 1 (process 5)`, as gdb prints it of a core without threads, is not understood. -/
theorem C72_not_process : parseThread c!"Thread 1 (process 5):\n#0  f () at a.c:1\n" = .ok none := by decide +kernel

end Satyr.Gdb
