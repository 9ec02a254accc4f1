import Verif.LazyReader.Spec
/-!
# C32, C33: the lazy reader of SPARQL results
-/
namespace Verif.Props
open Verif.Lazy

variable {H B M E : Type} (sd : Serde H B M E)

/-- Continue after a run. -/
def andThen (r : List (Part H B M) × End B E) (f : Parser B → List (Part H B M) × End B E) : List (Part H B M) × End B E :=
  match r with
  | (o, .running p) => (o ++ (f p).1, (f p).2)
  | (o, .err e) => (o, .err e)
  | (o, .panic) => (o, .panic)

theorem run_append (u v : Bytes) : ∀ p : Parser B, run sd p (u ++ v) = andThen (run sd p u) (fun p' => run sd p' v) := by
  induction u with
  | nil => intro p; simp [run, andThen]
  | cons c u ih =>
    intro p
    simp only [List.cons_append, run]
    cases readByte sd p c with
    | panic => rfl
    | err e => rfl
    | ok p' out =>
      simp only [ih p']
      rcases run sd p' u with ⟨o, _ | _ | _⟩ <;> simp [andThen]

theorem run_running {p p' : Parser B} {u : Bytes} {o} (h : run sd p u = (o, .running p')) (v : Bytes) :
    run sd p (u ++ v) = (o ++ (run sd p' v).1, (run sd p' v).2) := by
  rw [run_append, h]; rfl

/-- The bytes of the chunks. -/
def chunkBytes : List Chunk → Bytes
  | [] => []
  | .bytes l :: cs => l ++ chunkBytes cs
  | .fail _ :: cs => chunkBytes cs

/-- No chunk is a failure. -/
def allBytes (cs : List Chunk) : Prop := ∀ c ∈ cs, ∃ l, c = .bytes l

theorem readLoop_one (cs : List Chunk) (h : allBytes cs) : ∀ p : Parser B,
    readLoop sd p cs = readLoop sd p [.bytes (chunkBytes cs)] := by
  induction cs with
  | nil => intro p; simp [readLoop, chunkBytes, run]
  | cons c cs ih =>
    intro p
    obtain ⟨l, rfl⟩ := h c (by simp)
    have ih := ih (fun c hc => h c (List.mem_cons_of_mem _ hc))
    simp only [readLoop, chunkBytes, run_append]
    rcases hr : run sd p l with ⟨o, p' | e | _⟩
    · simp only [andThen, ih p', readLoop]
      rcases run sd p' (chunkBytes cs) with ⟨o', _ | _ | _⟩ <;> simp
    · simp [andThen]
    · simp [andThen]

/-- **C32, chunking.** How the stream is cut into chunks makes no difference: calls and outcome depend on the bytes alone. -/
theorem c32_chunks (checked : Bool) (batch : Nat) (limit : Option Nat) (offset : Nat) (cs ds : List Chunk) (hc : allBytes cs)
    (hd : allBytes ds) (h : chunkBytes cs = chunkBytes ds) :
    Lazy.read sd checked batch limit offset cs = Lazy.read sd checked batch limit offset ds := by
  unfold Lazy.read
  rw [readLoop_one sd cs hc, readLoop_one sd ds hd, h]

/-! ## The segments of a document -/

theorem stores_congr {p : Parser B} {i : Bytes} : Parser.stores { p with input := i } = p.stores := rfl

theorem str_run {s : Bytes} (hs : StrBody s) : ∀ (p : Parser B) (prev : Scan), p.scan = .readingString prev →
    run sd p s = ([], .running { p with input := p.input ++ s }) := by
  induction hs with
  | nil => intro p prev h; simp [run]
  | @plain c w h1 h2 _ ih =>
    intro p prev h
    simp only [run, readByte, Parser.stores, h, act, if_true, if_neg h1, if_neg h2]
    rw [ih _ prev (by simpa using h)]
    simp
  | @escape c w _ ih =>
    intro p prev h
    have hq : ¬ (backslash = quote) := by decide
    simp only [run, readByte, Parser.stores, h, act, if_true, if_neg hq]
    rw [ih _ prev rfl]
    obtain ⟨scan, input, _, _, _, _, _⟩ := p
    simp only at h
    subst h
    simp

/-- A whole string inside a header or a binding: only the buffer changes. -/
theorem string_run {s : Bytes} (hs : StrBody s) (p : Parser B) (h : p.scan = .readingHead ∨ ∃ d, p.scan = .readingBinding d) :
    ∃ i, run sd p (quote :: s ++ [quote]) = ([], .running { p with input := i }) ∧
      (p.stores = true → i = p.input ++ (quote :: s ++ [quote])) := by
  have hqr : ¬ (quote = rbrace) := by decide
  have hql : ¬ (quote = lbrace) := by decide
  obtain ⟨scan, input, bs, bf, ct, lm, of⟩ := p
  have hstep : ∃ i0, readByte sd (⟨scan, input, bs, bf, ct, lm, of⟩ : Parser B) quote =
      .ok ⟨.readingString scan, i0, bs, bf, ct, lm, of⟩ none ∧
      (Parser.stores (⟨scan, input, bs, bf, ct, lm, of⟩ : Parser B) = true → i0 = input ++ [quote]) := by
    rcases h with h | ⟨d, h⟩
    · simp only at h; subst h
      exact ⟨input ++ [quote], by simp [readByte, Parser.stores, act, hqr], fun _ => rfl⟩
    · simp only at h; subst h
      by_cases hst : Parser.stores (⟨.readingBinding d, input, bs, bf, ct, lm, of⟩ : Parser B) = true
      · exact ⟨input ++ [quote], by simp [readByte, hst, act, hqr, hql], fun _ => rfl⟩
      · exact ⟨input, by simp [readByte, hst, act, hqr, hql], fun h => absurd h hst⟩
  obtain ⟨i0, e0, hi0⟩ := hstep
  refine ⟨i0 ++ s ++ [quote], ?_, ?_⟩
  · simp only [List.cons_append, run, e0]
    rw [run_running sd (str_run sd hs _ scan rfl)]
    simp [run, readByte, Parser.stores, act]
  · intro hst
    rw [hi0 hst]; simp

theorem flat_run {w : Bytes} (hw : Flat w) : ∀ (p : Parser B), p.scan = .readingHead →
    run sd p w = ([], .running { p with input := p.input ++ w }) := by
  induction hw with
  | nil => intro p h; simp [run]
  | @byte c w h1 h2 _ ih =>
    intro p h
    simp only [run, readByte, Parser.stores, h, act, if_true, if_neg h1, if_neg h2]
    rw [ih _ (by simpa using h)]
    simp
  | @str s w hs _ ih =>
    intro p h
    obtain ⟨i, e, hi⟩ := string_run sd hs p (Or.inl h)
    have e' : quote :: s ++ quote :: w = (quote :: s ++ [quote]) ++ w := by simp
    rw [e', run_running sd e, ih { p with input := i } h, hi (by simp [Parser.stores, h])]
    simp

/-- Reading the inside of an object at depth `d`. -/
theorem body_run {n : Nat} {w : Bytes} (hw : Body n w) : ∀ (p : Parser B) (d : Nat), p.scan = .readingBinding d → 1 ≤ d → d + n < 256 →
    ∃ i, run sd p w = ([], .running { p with input := i }) ∧ (p.stores = true → i = p.input ++ w) := by
  induction hw with
  | nil => intro p d h _ _; exact ⟨p.input, by simp [run], fun _ => by simp⟩
  | @byte n c w h1 h2 h3 _ ih =>
    intro p d h hd hn
    obtain ⟨scan, input, bs, bf, ct, lm, of⟩ := p
    simp only at h
    subst h
    by_cases hs : Parser.stores (⟨.readingBinding d, input, bs, bf, ct, lm, of⟩ : Parser B) = true
    · obtain ⟨i, e, hi⟩ := ih ⟨.readingBinding d, input ++ [c], bs, bf, ct, lm, of⟩ d rfl hd hn
      refine ⟨i, ?_, fun _ => by rw [hi hs]; simp⟩
      simp only [run, readByte, hs, act, if_true, if_neg h1, if_neg h2, if_neg h3]
      rw [e]; simp
    · obtain ⟨i, e, hi⟩ := ih ⟨.readingBinding d, input, bs, bf, ct, lm, of⟩ d rfl hd hn
      refine ⟨i, ?_, fun h => absurd h hs⟩
      have e' : readByte sd (⟨.readingBinding d, input, bs, bf, ct, lm, of⟩ : Parser B) c =
          .ok ⟨.readingBinding d, input, bs, bf, ct, lm, of⟩ none := by
        simp [readByte, hs, act, h1, h2, h3]
      simp only [run, e']
      rw [e]; simp
  | @str n s w hs _ ih =>
    intro p d h hd hn
    obtain ⟨i, e, hi⟩ := string_run sd hs p (Or.inr ⟨d, h⟩)
    obtain ⟨j, e', hj⟩ := ih { p with input := i } d h hd hn
    have eq : quote :: s ++ quote :: w = (quote :: s ++ [quote]) ++ w := by simp
    refine ⟨j, ?_, fun hst => ?_⟩
    · rw [eq, run_running sd e, e']; simp
    · rw [hj hst, hi hst]; simp
  | @obj n u w _ _ ihu ihw =>
    intro p d h hd hn
    have hlr : ¬ (lbrace = rbrace) := by decide
    obtain ⟨scan, input, bs, bf, ct, lm, of⟩ := p
    simp only at h
    subst h
    -- storing does not depend on the depth
    have hst : ∀ (d' : Nat) (i : Bytes), Parser.stores (⟨.readingBinding d', i, bs, bf, ct, lm, of⟩ : Parser B) =
        Parser.stores (⟨.readingBinding d, input, bs, bf, ct, lm, of⟩ : Parser B) := fun _ _ => rfl
    have key : ∀ (c : Byte) (d1 d2 : Nat) (i : Bytes), (∀ q : Parser B, q.scan = .readingBinding d1 → act sd q c = .ok { q with scan := .readingBinding d2 } none) →
        ∃ i', readByte sd (⟨.readingBinding d1, i, bs, bf, ct, lm, of⟩ : Parser B) c = .ok ⟨.readingBinding d2, i', bs, bf, ct, lm, of⟩ none ∧
          (Parser.stores (⟨.readingBinding d, input, bs, bf, ct, lm, of⟩ : Parser B) = true → i' = i ++ [c]) := by
      intro c d1 d2 i ha
      by_cases hs : Parser.stores (⟨.readingBinding d, input, bs, bf, ct, lm, of⟩ : Parser B) = true
      · refine ⟨i ++ [c], ?_, fun _ => rfl⟩
        unfold readByte
        rw [hst d1 i, if_pos hs, ha _ rfl]
      · refine ⟨i, ?_, fun h => absurd h hs⟩
        unfold readByte
        rw [hst d1 i, if_neg hs, ha _ rfl]
    obtain ⟨i1, e1, h1⟩ := key lbrace d (d + 1) input (fun q hq => by
      unfold act; rw [hq]; simp only [if_neg hlr, if_true]; rw [if_pos (by omega)])
    obtain ⟨i2, e2, h2⟩ := ihu ⟨.readingBinding (d + 1), i1, bs, bf, ct, lm, of⟩ (d + 1) rfl (by omega) (by omega)
    obtain ⟨i3, e3, h3⟩ := key rbrace (d + 1) d i2 (fun q hq => by
      unfold act; rw [hq]; simp only [if_true]; rw [if_neg (by omega), if_neg (by omega)]; simp)
    obtain ⟨i4, e4, h4⟩ := ihw ⟨.readingBinding d, i3, bs, bf, ct, lm, of⟩ d rfl hd hn
    refine ⟨i4, ?_, ?_⟩
    · simp only [List.cons_append, run, e1]
      rw [run_running sd e2]
      simp only [run, e3]
      rw [e4]
      simp
    · intro hs
      rw [h4 (by rw [hst]; exact hs), h3 hs, h2 (by rw [hst]; exact hs), h1 hs]
      simp

/-- In the window: the row with this number (from 0) is asked for. -/
def inWindow (limit : Option Nat) (offset k : Nat) : Bool := decide (offset ≤ k) && noneOr limit (fun l => decide (k - offset < l))

theorem obj_run {o : Bytes} (ho : IsObj o) (p : Parser B) (h : p.scan = .searchingBinding) :
    ∃ i, run sd p o =
      if inWindow p.limit p.offset p.counter = true then
        match sd.binding o with
        | .error e => ([], .err e)
        | .ok b =>
          if (p.buffer ++ [b]).length = p.batchSize then
            ([.bindings (p.buffer ++ [b])], .running { p with input := i, counter := p.counter + 1, buffer := [] })
          else ([], .running { p with input := i, counter := p.counter + 1, buffer := p.buffer ++ [b] })
      else ([], .running { p with input := i, counter := p.counter + 1 }) := by
  obtain ⟨u, rfl, hu⟩ := ho
  obtain ⟨scan, input, bs, bf, ct, lm, of⟩ := p
  simp only at h
  subst h
  have e0 : readByte sd (⟨.searchingBinding, input, bs, bf, ct, lm, of⟩ : Parser B) lbrace =
      .ok ⟨.readingBinding 1, [lbrace], bs, bf, ct, lm, of⟩ none := by simp [readByte, Parser.stores, act]
  obtain ⟨i, e, hi⟩ := body_run sd hu ⟨.readingBinding 1, [lbrace], bs, bf, ct, lm, of⟩ 1 rfl (by omega) (by omega)
  have hst : Parser.stores (⟨.readingBinding 1, i, bs, bf, ct, lm, of⟩ : Parser B) = inWindow lm of ct := rfl
  have hst' : Parser.stores (⟨.readingBinding 1, [lbrace], bs, bf, ct, lm, of⟩ : Parser B) = inWindow lm of ct := rfl
  have hcond : (decide (of < ct + 1) && noneOr lm (fun l => decide (ct + 1 - of ≤ l))) = inWindow lm of ct := by
    unfold inWindow
    have h1 : decide (of < ct + 1) = decide (of ≤ ct) := by apply decide_eq_decide.2; omega
    rw [h1]
    by_cases ho : of ≤ ct
    · have h2 : (fun l => decide (ct + 1 - of ≤ l)) = (fun l => decide (ct - of < l)) := by
        funext l; apply decide_eq_decide.2; omega
      rw [h2]
    · simp [ho]
  by_cases hw : inWindow lm of ct = true
  · refine ⟨lbrace :: u ++ [rbrace], ?_⟩
    rw [hi (by rw [hst']; exact hw)] at e hst
    have e1 : readByte sd (⟨.readingBinding 1, [lbrace] ++ u, bs, bf, ct, lm, of⟩ : Parser B) rbrace =
        endBinding sd ⟨.readingBinding 1, lbrace :: u ++ [rbrace], bs, bf, ct, lm, of⟩ := by
      unfold readByte
      rw [hst, if_pos hw]
      simp [act]
    simp only [List.cons_append, run, e0]
    rw [run_running sd e]
    simp only [run, e1, endBinding, hcond, hw, if_true]
    simp only [List.cons_append]
    cases sd.binding (lbrace :: (u ++ [rbrace])) with
    | error e => simp
    | ok b =>
      dsimp only
      by_cases hl : (bf ++ [b]).length = bs
      · simp only [if_pos hl]; simp
      · simp only [if_neg hl]; simp
  · refine ⟨[], ?_⟩
    have e1 : readByte sd (⟨.readingBinding 1, i, bs, bf, ct, lm, of⟩ : Parser B) rbrace =
        endBinding sd ⟨.readingBinding 1, i, bs, bf, ct, lm, of⟩ := by
      unfold readByte
      rw [hst, if_neg hw]
      simp [act]
    simp only [List.cons_append, run, e0]
    rw [run_running sd e]
    simp only [run, e1, endBinding, hcond, if_neg hw]
    simp

/-- The rows asked for among those numbered from `k` on. -/
def select (limit : Option Nat) (offset : Nat) : Nat → List Bytes → List Bytes
  | _, [] => []
  | k, o :: rows => if inWindow limit offset k = true then o :: select limit offset (k + 1) rows else select limit offset (k + 1) rows

theorem select_window (limit : Option Nat) (offset : Nat) (rows : List Bytes) : ∀ k, select limit offset k rows =
    match limit with
    | none => rows.drop (offset - k)
    | some l => (rows.drop (offset - k)).take (l - (k - offset)) := by
  induction rows with
  | nil => intro k; cases limit <;> simp [select]
  | cons o rows ih =>
    intro k
    unfold select
    rw [ih (k + 1)]
    cases limit with
    | none =>
      simp only [inWindow, noneOr, Bool.and_true, decide_eq_true_eq]
      by_cases h : offset ≤ k
      · rw [if_pos h]
        have h1 : offset - k = 0 := by omega
        have h2 : offset - (k + 1) = 0 := by omega
        rw [h1, h2]; rfl
      · rw [if_neg h]
        have h1 : offset - k = (offset - (k + 1)) + 1 := by omega
        rw [h1]; rfl
    | some l =>
      simp only [inWindow, noneOr, Bool.and_eq_true, decide_eq_true_eq]
      by_cases h : offset ≤ k
      · have h1 : offset - k = 0 := by omega
        have h2 : offset - (k + 1) = 0 := by omega
        rw [h1, h2]
        by_cases hl : k - offset < l
        · rw [if_pos ⟨h, hl⟩]
          have h3 : l - (k - offset) = (l - (k + 1 - offset)) + 1 := by omega
          rw [h3]; rfl
        · rw [if_neg (fun x => hl x.2)]
          have h3 : l - (k - offset) = 0 := by omega
          have h4 : l - (k + 1 - offset) = 0 := by omega
          rw [h3, h4]; simp
      · rw [if_neg (fun x => h x.1)]
        have h1 : offset - k = (offset - (k + 1)) + 1 := by omega
        have h2 : k - offset = 0 := by omega
        have h3 : k + 1 - offset = 0 := by omega
        rw [h1, h2, h3]; rfl

theorem select_zero (limit : Option Nat) (offset : Nat) (rows : List Bytes) : select limit offset 0 rows = window limit offset rows := by
  rw [select_window]
  cases limit <;> simp [window]

/-- One more value in the buffer. -/
theorem batched_step {n : Nat} {buf : List B} {b : B} {vs : List B} {batches rem} (hlt : buf.length < n) :
    ((buf ++ [b]).length = n → Batched n vs batches rem → Batched n (buf ++ b :: vs) ((buf ++ [b]) :: batches) rem) ∧
    ((buf ++ [b]).length ≠ n → Batched n ((buf ++ [b]) ++ vs) batches rem → Batched n (buf ++ b :: vs) batches rem) := by
  constructor
  · rintro h ⟨h1, h2, h3⟩
    refine ⟨by rw [← h1]; simp, ?_, h3⟩
    intro x hx
    rcases List.mem_cons.1 hx with rfl | hx
    · exact h
    · exact h2 x hx
  · rintro _ ⟨h1, h2, h3⟩
    exact ⟨by rw [h1]; simp, h2, h3⟩

/-- The rows of a document, all selected ones well-formed. -/
theorem rows_ok {rows : List Bytes} {w : Bytes} (hw : Rows rows w) : ∀ (p : Parser B) (vs : List B), p.scan = .searchingBinding →
    p.buffer.length < p.batchSize → Parses sd.binding (select p.limit p.offset p.counter rows) vs →
    ∃ i batches rem, run sd p w = (batches.map .bindings, .running { p with input := i, counter := p.counter + rows.length, buffer := rem }) ∧
      Batched p.batchSize (p.buffer ++ vs) batches rem := by
  induction hw with
  | nil =>
    intro p vs h hb hp
    have : vs = [] := by
      cases vs with
      | nil => rfl
      | cons v vs => simp [Parses, select] at hp
    subst this
    exact ⟨p.input, [], p.buffer, by simp [run], ⟨by simp, by simp, hb⟩⟩
  | @sep c rows w h1 h2 _ ih =>
    intro p vs h hb hp
    obtain ⟨i, batches, rem, e, hbat⟩ := ih p vs h hb hp
    refine ⟨i, batches, rem, ?_, hbat⟩
    have : readByte sd p c = .ok p none := by
      simp [readByte, Parser.stores, h, act, h1, h2]
    simp only [run, this]
    rw [e]; simp
  | @row o rows w ho _ ih =>
    intro p vs h hb hp
    obtain ⟨scan, input, bs, bf, ct, lm, of⟩ := p
    simp only at h hb hp
    subst h
    obtain ⟨i, e⟩ := obj_run sd ho ⟨.searchingBinding, input, bs, bf, ct, lm, of⟩ rfl
    simp only [select] at hp
    by_cases hw : inWindow lm of ct = true
    · rw [if_pos hw] at hp
      simp only [if_pos hw] at e
      cases vs with
      | nil => simp [Parses] at hp
      | cons v vs =>
        simp only [Parses, List.map_cons, List.cons.injEq] at hp
        rw [hp.1] at e
        dsimp only at e
        by_cases hl : (bf ++ [v]).length = bs
        · rw [if_pos hl] at e
          obtain ⟨i', batches, rem, e', hbat⟩ := ih ⟨.searchingBinding, i, bs, [], ct + 1, lm, of⟩ vs rfl
            (by simp only [List.length_nil]; omega) hp.2
          refine ⟨i', (bf ++ [v]) :: batches, rem, ?_, (batched_step hb).1 hl (by simpa using hbat)⟩
          rw [run_running sd e, e']
          simp only [List.length_cons, List.map_cons, List.singleton_append]
          rw [show ct + 1 + rows.length = ct + (rows.length + 1) by omega]
        · rw [if_neg hl] at e
          obtain ⟨i', batches, rem, e', hbat⟩ := ih ⟨.searchingBinding, i, bs, bf ++ [v], ct + 1, lm, of⟩ vs rfl
            (by simp only [List.length_append, List.length_cons, List.length_nil] at hl ⊢; omega) hp.2
          refine ⟨i', batches, rem, ?_, (batched_step hb).2 hl hbat⟩
          rw [run_running sd e, e']
          simp only [List.length_cons, List.nil_append]
          rw [show ct + 1 + rows.length = ct + (rows.length + 1) by omega]
    · rw [if_neg hw] at hp
      simp only [if_neg hw] at e
      obtain ⟨i', batches, rem, e', hbat⟩ := ih ⟨.searchingBinding, i, bs, bf, ct + 1, lm, of⟩ vs rfl hb hp
      refine ⟨i', batches, rem, ?_, hbat⟩
      rw [run_running sd e, e']
      simp only [List.length_cons, List.nil_append]
      rw [show ct + 1 + rows.length = ct + (rows.length + 1) by omega]

/-- The rows of a document, the selected one after those of `vs` malformed. -/
theorem rows_err {rows : List Bytes} {w : Bytes} (hw : Rows rows w) : ∀ (p : Parser B) (vs : List B) (ws ws' : List Bytes) (bad : Bytes) (x : E),
    p.scan = .searchingBinding → p.buffer.length < p.batchSize → select p.limit p.offset p.counter rows = ws ++ bad :: ws' →
    Parses sd.binding ws vs → sd.binding bad = .error x →
    ∃ batches rem, run sd p w = (batches.map .bindings, .err x) ∧ Batched p.batchSize (p.buffer ++ vs) batches rem := by
  induction hw with
  | nil =>
    intro p vs ws ws' bad x _ _ hs
    simp [select] at hs
  | @sep c rows w h1 h2 _ ih =>
    intro p vs ws ws' bad x h hb hs hp hbad
    obtain ⟨batches, rem, e, hbat⟩ := ih p vs ws ws' bad x h hb hs hp hbad
    refine ⟨batches, rem, ?_, hbat⟩
    have : readByte sd p c = .ok p none := by
      simp [readByte, Parser.stores, h, act, h1, h2]
    simp only [run, this]
    rw [e]; simp
  | @row o rows w ho _ ih =>
    intro p vs ws ws' bad x h hb hs hp hbad
    obtain ⟨scan, input, bs, bf, ct, lm, of⟩ := p
    simp only at h hb hs
    subst h
    obtain ⟨i, e⟩ := obj_run sd ho ⟨.searchingBinding, input, bs, bf, ct, lm, of⟩ rfl
    simp only [select] at hs
    by_cases hw : inWindow lm of ct = true
    · rw [if_pos hw] at hs
      simp only [if_pos hw] at e
      cases ws with
      | nil =>
        have hv : vs = [] := by
          cases vs with
          | nil => rfl
          | cons v vs => simp [Parses] at hp
        subst hv
        simp only [List.nil_append, List.cons.injEq] at hs
        rw [hs.1, hbad] at e
        dsimp only at e
        refine ⟨[], bf, ?_, ⟨by simp, by simp, hb⟩⟩
        rw [hs.1, run_append, e]
        rfl
      | cons o' ws =>
        simp only [List.cons_append, List.cons.injEq] at hs
        obtain ⟨rfl, hs⟩ := hs
        cases vs with
        | nil => simp [Parses] at hp
        | cons v vs =>
          simp only [Parses, List.map_cons, List.cons.injEq] at hp
          rw [hp.1] at e
          dsimp only at e
          by_cases hl : (bf ++ [v]).length = bs
          · rw [if_pos hl] at e
            obtain ⟨batches, rem, e', hbat⟩ := ih ⟨.searchingBinding, i, bs, [], ct + 1, lm, of⟩ vs ws ws' bad x rfl
              (by simp only [List.length_nil]; omega) hs hp.2 hbad
            refine ⟨(bf ++ [v]) :: batches, rem, ?_, (batched_step hb).1 hl (by simpa using hbat)⟩
            rw [run_running sd e, e']
            simp
          · rw [if_neg hl] at e
            obtain ⟨batches, rem, e', hbat⟩ := ih ⟨.searchingBinding, i, bs, bf ++ [v], ct + 1, lm, of⟩ vs ws ws' bad x rfl
              (by simp only [List.length_append, List.length_cons, List.length_nil] at hl ⊢; omega) hs hp.2 hbad
            refine ⟨batches, rem, ?_, (batched_step hb).2 hl hbat⟩
            rw [run_running sd e, e']
            simp
    · rw [if_neg hw] at hs
      simp only [if_neg hw] at e
      obtain ⟨batches, rem, e', hbat⟩ := ih ⟨.searchingBinding, i, bs, bf, ct + 1, lm, of⟩ vs ws ws' bad x rfl hb hs hp hbad
      refine ⟨batches, rem, ?_, hbat⟩
      rw [run_running sd e, e']
      simp

/-- Bytes that mean nothing to the state. -/
theorem idle_run {c0 : Byte} {st : Scan} (hidle : ∀ (p : Parser B) c, p.scan = st → c ≠ c0 → readByte sd p c = .ok p none) (w : Bytes) :
    ∀ p : Parser B, p.scan = st → c0 ∉ w → run sd p w = ([], .running p) := by
  induction w with
  | nil => intro p _ _; rfl
  | cons c w ih =>
    intro p h hc
    simp only [List.mem_cons, not_or] at hc
    simp only [run, hidle p c h (fun e => hc.1 e.symm)]
    rw [ih p h hc.2]; simp

/-- From the start through the opening bracket of the bindings. -/
theorem start_run {head gap : Bytes} (hh : Flat head) (hg : lbrack ∉ gap) {v : H} (hv : sd.header (head ++ [rbrace, rbrace]) = .ok v)
    (batch : Nat) (limit : Option Nat) (offset : Nat) :
    run sd (Parser.new batch limit offset) (head ++ [rbrace] ++ gap ++ [lbrack]) =
      ([.header v], .running ⟨.searchingBinding, [], batch, [], 0, limit, offset⟩) := by
  have e1 := flat_run sd hh (Parser.new batch limit offset) rfl
  have e2 : run sd { (Parser.new batch limit offset : Parser B) with input := (Parser.new batch limit offset : Parser B).input ++ head } [rbrace] =
      ([.header v], .running ⟨.searchingBindings, head ++ [rbrace, rbrace], batch, [], 0, limit, offset⟩) := by
    simp only [Parser.new, run, readByte, Parser.stores, act, if_true, List.nil_append, List.append_assoc, List.cons_append]
    rw [hv]
    simp
  have e3 := idle_run sd (c0 := lbrack) (st := .searchingBindings) (fun p c h hc => by
    simp [readByte, Parser.stores, h, act, hc]) gap ⟨.searchingBindings, head ++ [rbrace, rbrace], batch, [], 0, limit, offset⟩ rfl hg
  have e4 : run sd (⟨.searchingBindings, head ++ [rbrace, rbrace], batch, [], 0, limit, offset⟩ : Parser B) [lbrack] =
      ([], .running ⟨.searchingBinding, [], batch, [], 0, limit, offset⟩) := by
    simp [run, readByte, Parser.stores, act]
  have e12 := run_running sd e1 [rbrace]
  rw [e2] at e12
  have e123 := run_running sd e12 gap
  rw [e3] at e123
  have e := run_running sd e123 [lbrack]
  rw [e4] at e
  simpa using e

/-- From the closing bracket to the end. -/
theorem end_run {gap met rest : Bytes} (hg : lbrace ∉ gap) (hm : rbrace ∉ met) {v : M} (hv : sd.metadata (lbrace :: met ++ [rbrace]) = .ok v)
    (p : Parser B) (h : p.scan = .searchingBinding) :
    ∃ i, run sd p ([rbrack] ++ gap ++ [lbrace] ++ met ++ [rbrace] ++ rest) = ([.metadata v], .running { p with scan := .done, input := i }) := by
  obtain ⟨scan, input, bs, bf, ct, lm, of⟩ := p
  simp only at h
  subst h
  have hrl : ¬ (rbrack = lbrace) := by decide
  have e1 : run sd (⟨.searchingBinding, input, bs, bf, ct, lm, of⟩ : Parser B) [rbrack] =
      ([], .running ⟨.searchingMeta, input, bs, bf, ct, lm, of⟩) := by
    simp [run, readByte, Parser.stores, act, hrl]
  have e2 := idle_run sd (c0 := lbrace) (st := .searchingMeta) (fun p c h hc => by
    simp [readByte, Parser.stores, h, act, hc]) gap ⟨.searchingMeta, input, bs, bf, ct, lm, of⟩ rfl hg
  have e3 : run sd (⟨.searchingMeta, input, bs, bf, ct, lm, of⟩ : Parser B) [lbrace] =
      ([], .running ⟨.readingMeta, [lbrace], bs, bf, ct, lm, of⟩) := by
    simp [run, readByte, Parser.stores, act]
  have e4 : ∀ (w i : Bytes), rbrace ∉ w → run sd (⟨.readingMeta, i, bs, bf, ct, lm, of⟩ : Parser B) w =
      ([], .running ⟨.readingMeta, i ++ w, bs, bf, ct, lm, of⟩) := by
    intro w
    induction w with
    | nil => intro i _; simp [run]
    | cons c w ih =>
      intro i hc
      simp only [List.mem_cons, not_or] at hc
      have : ¬ (c = rbrace) := fun e => hc.1 e.symm
      simp only [run, readByte, Parser.stores, act, if_true, if_neg this]
      rw [ih _ hc.2]; simp
  have e5 : run sd (⟨.readingMeta, [lbrace] ++ met, bs, bf, ct, lm, of⟩ : Parser B) [rbrace] =
      ([.metadata v], .running ⟨.done, lbrace :: met ++ [rbrace], bs, bf, ct, lm, of⟩) := by
    simp only [run, readByte, Parser.stores, act, if_true]
    rw [show [lbrace] ++ met ++ [rbrace] = lbrace :: met ++ [rbrace] from rfl, hv]
    simp
  have e6 : ∀ (w i : Bytes), run sd (⟨.done, i, bs, bf, ct, lm, of⟩ : Parser B) w = ([], .running ⟨.done, i, bs, bf, ct, lm, of⟩) := by
    intro w i
    induction w with
    | nil => rfl
    | cons c w ih =>
      have : readByte sd (⟨.done, i, bs, bf, ct, lm, of⟩ : Parser B) c = .ok ⟨.done, i, bs, bf, ct, lm, of⟩ none := by
        simp [readByte, Parser.stores, act]
      simp only [run, this]
      rw [ih]; simp
  refine ⟨lbrace :: met ++ [rbrace], ?_⟩
  have f := run_running sd e1 gap
  rw [e2] at f
  have f := run_running sd f [lbrace]
  rw [e3] at f
  have f := run_running sd f met
  rw [e4 met _ hm] at f
  have f := run_running sd f [rbrace]
  rw [e5] at f
  have f := run_running sd f rest
  rw [e6] at f
  simpa using f

/-! ## C32 -/

theorem rows_run_ok {d : Doc} (hd : d.Ok) {hv : H} (hh : sd.header (d.head ++ [rbrace, rbrace]) = .ok hv) {batch : Nat} (hb : 0 < batch)
    (limit : Option Nat) (offset : Nat) {vs : List B} (hp : Parses sd.binding (window limit offset d.rows) vs) :
    ∃ i batches rem, Batched batch vs batches rem ∧ run sd (Parser.new batch limit offset) d.upToRows =
      (.header hv :: batches.map .bindings, .running ⟨.searchingBinding, i, batch, rem, d.rows.length, limit, offset⟩) := by
  have e := start_run sd hd.head hd.toBindings hh batch limit offset
  obtain ⟨i, batches, rem, e', hbat⟩ := rows_ok sd hd.rows ⟨.searchingBinding, [], batch, [], 0, limit, offset⟩ vs rfl hb
    (by rw [select_zero]; exact hp)
  refine ⟨i, batches, rem, by simpa using hbat, ?_⟩
  have f := run_running sd e d.rowsText
  rw [e'] at f
  unfold Doc.upToRows
  rw [f]
  simp

theorem read_run {checked : Bool} {batch : Nat} {limit : Option Nat} {offset : Nat} {cs : List Chunk} (hg : admits checked batch limit offset = true)
    (hc : allBytes cs) : Lazy.read sd checked batch limit offset cs = readLoop sd (Parser.new batch limit offset) [.bytes (chunkBytes cs)] := by
  unfold Lazy.read
  rw [if_pos hg, readLoop_one sd cs hc]

/-- The last call: the rows that do not fill a batch, if any. -/
def tailCall (rem : List B) : List (Part H B M) := if rem.isEmpty then [] else [.bindings rem]

/-- **C32, the whole document.** However it is cut into chunks: the header, then exactly the rows asked for, in order and in
batches of the requested size, the meta data, and the rows that do not fill a batch; the result is the number of all rows. Rows
outside the window need not be well-formed. -/
theorem c32_complete {d : Doc} (hd : d.Ok) {hv : H} (hh : sd.header (d.head ++ [rbrace, rbrace]) = .ok hv) {mv : M}
    (hm : sd.metadata (lbrace :: d.meta_ ++ [rbrace]) = .ok mv) {checked : Bool} {batch : Nat} (hb : 0 < batch) {limit : Option Nat} {offset : Nat}
    (hg : admits checked batch limit offset = true) {vs : List B} (hp : Parses sd.binding (window limit offset d.rows) vs)
    {cs : List Chunk} (hc : allBytes cs) (hcs : chunkBytes cs = d.text) :
    ∃ batches rem, Batched batch vs batches rem ∧ Lazy.read sd checked batch limit offset cs =
      ([.header hv] ++ batches.map .bindings ++ [.metadata mv] ++ tailCall rem, .count d.rows.length) := by
  obtain ⟨i, batches, rem, hbat, e⟩ := rows_run_ok sd hd hh hb limit offset hp
  obtain ⟨j, e'⟩ := end_run sd hd.toMeta hd.meta_ hm (rest := d.rest) ⟨.searchingBinding, i, batch, rem, d.rows.length, limit, offset⟩ rfl
  have f := run_running sd e ([rbrack] ++ d.toMeta ++ [lbrace] ++ d.meta_ ++ [rbrace] ++ d.rest)
  rw [e'] at f
  have et : d.text = d.upToRows ++ ([rbrack] ++ d.toMeta ++ [lbrace] ++ d.meta_ ++ [rbrace] ++ d.rest) := by simp [Doc.text]
  refine ⟨batches, rem, hbat, ?_⟩
  rw [read_run sd hg hc, hcs, et]
  simp only [readLoop, f, tailCall]
  simp

/-- Nothing but the scanner changed. -/
def Quiet (p p' : Parser B) : Prop :=
  p'.batchSize = p.batchSize ∧ p'.buffer = p.buffer ∧ p'.counter = p.counter ∧ p'.limit = p.limit ∧ p'.offset = p.offset

theorem Quiet.trans {p q r : Parser B} (h : Quiet p q) (h' : Quiet q r) : Quiet p r := by
  obtain ⟨a, b, c, d, e⟩ := h
  obtain ⟨a', b', c', d', e'⟩ := h'
  exact ⟨a'.trans a, b'.trans b, c'.trans c, d'.trans d, e'.trans e⟩

/-- The bytes are read without a call. -/
def QuietRun (p : Parser B) (t : Bytes) : Prop := ∃ p', run sd p t = ([], .running p') ∧ Quiet p p'

theorem quiet_nil (p : Parser B) : QuietRun sd p [] := ⟨p, rfl, rfl, rfl, rfl, rfl, rfl⟩

theorem quiet_cons {p p1 : Parser B} {c : Byte} {t : Bytes} (h : readByte sd p c = .ok p1 none) (hq : Quiet p p1) (ht : QuietRun sd p1 t) :
    QuietRun sd p (c :: t) := by
  obtain ⟨p', e, hq'⟩ := ht
  exact ⟨p', by simp [run, h, e], hq.trans hq'⟩

theorem quiet_append {p p1 : Parser B} {u t : Bytes} (h : run sd p u = ([], .running p1)) (hq : Quiet p p1) (ht : QuietRun sd p1 t) :
    QuietRun sd p (u ++ t) := by
  obtain ⟨p', e, hq'⟩ := ht
  exact ⟨p', by rw [run_running sd h, e]; rfl, hq.trans hq'⟩

theorem prefix_cons {c : Byte} {t w : Bytes} (h : t <+: c :: w) : t = [] ∨ ∃ t', t = c :: t' ∧ t' <+: w := by
  cases t with
  | nil => exact Or.inl rfl
  | cons d t =>
    obtain ⟨v, hv⟩ := h
    simp only [List.cons_append, List.cons.injEq] at hv
    exact Or.inr ⟨t, by rw [hv.1], v, hv.2⟩

theorem prefix_append_cases {t u v : Bytes} (h : t <+: u ++ v) : (t <+: u) ∨ ∃ t', t = u ++ t' ∧ t' <+: v := by
  rcases Nat.le_total t.length u.length with hl | hl
  · exact Or.inl (List.prefix_of_prefix_length_le h (List.prefix_append u v) hl)
  · obtain ⟨t', rfl⟩ := List.prefix_of_prefix_length_le (List.prefix_append u v) h hl
    refine Or.inr ⟨t', rfl, ?_⟩
    exact (List.prefix_append_right_inj u).1 h

theorem quiet_store (p : Parser B) (c : Byte) : Quiet p (if p.stores then { p with input := p.input ++ [c] } else p) := by
  split <;> exact ⟨rfl, rfl, rfl, rfl, rfl⟩

theorem store_scan (p : Parser B) (c : Byte) : (if p.stores then { p with input := p.input ++ [c] } else p).scan = p.scan := by
  split <;> rfl

/-- A step that only changes the scanner state. -/
theorem quiet_step {p : Parser B} {c : Byte} {t : Bytes} {s : Scan}
    (h : ∀ q : Parser B, q.scan = p.scan → act sd q c = .ok { q with scan := s } none)
    (ht : ∀ q : Parser B, q.scan = s → Quiet p q → QuietRun sd q t) : QuietRun sd p (c :: t) := by
  have hq := quiet_store p c
  refine quiet_cons sd (h _ (store_scan p c)) ?_ (ht _ rfl ?_) <;> exact ⟨hq.1, hq.2.1, hq.2.2.1, hq.2.2.2.1, hq.2.2.2.2⟩

/-- In a string nothing is called, whatever follows up to its end. -/
theorem quiet_str {s : Bytes} (hs : StrBody s) : ∀ (p : Parser B) (prev : Scan) (t : Bytes), p.scan = .readingString prev →
    t <+: s ++ [quote] → QuietRun sd p t := by
  induction hs with
  | nil =>
    intro p prev t h ht
    rcases prefix_cons (by simpa using ht) with rfl | ⟨t', rfl, ht'⟩
    · exact quiet_nil sd p
    · have : t' = [] := by simpa using ht'
      subst this
      exact quiet_step sd (s := prev) (fun q hq => by unfold act; rw [hq, h]; simp) (fun q _ _ => quiet_nil sd q)
  | @plain c w h1 h2 _ ih =>
    intro p prev t h ht
    rcases prefix_cons ht with rfl | ⟨t', rfl, ht'⟩
    · exact quiet_nil sd p
    · refine quiet_step sd (s := .readingString prev) (fun q hq => ?_) (fun q hq _ => ih q prev t' hq ht')
      unfold act; rw [hq, h]; simp only [if_neg h1, if_neg h2]
      rw [show (Scan.readingString prev) = q.scan from (hq.trans h).symm]
  | @escape c w _ ih =>
    intro p prev t h ht
    rcases prefix_cons ht with rfl | ⟨t', rfl, ht'⟩
    · exact quiet_nil sd p
    · refine quiet_step sd (s := .readingStringEscaped prev) (fun q hq => ?_) (fun q hq _ => ?_)
      · unfold act; rw [hq, h]; simp only [if_neg (show ¬ (backslash = quote) by decide), if_true]
      · rcases prefix_cons ht' with rfl | ⟨t'', rfl, ht''⟩
        · exact quiet_nil sd q
        · refine quiet_step sd (s := .readingString prev) (fun q' hq' => ?_) (fun q' hq' _ => ih q' prev t'' hq' ht'')
          unfold act; rw [hq', hq]

theorem quiet_body {n : Nat} {w : Bytes} (hw : Body n w) : ∀ (p : Parser B) (d : Nat) (t : Bytes), p.scan = .readingBinding d → 1 ≤ d →
    d + n < 256 → t <+: w → QuietRun sd p t := by
  have hqr : ¬ (quote = rbrace) := by decide
  have hql : ¬ (quote = lbrace) := by decide
  have hlr : ¬ (lbrace = rbrace) := by decide
  induction hw with
  | nil =>
    intro p d t _ _ _ ht
    have : t = [] := by simpa using ht
    subst this
    exact quiet_nil sd p
  | @byte n c w h1 h2 h3 _ ih =>
    intro p d t h hd hn ht
    rcases prefix_cons ht with rfl | ⟨t', rfl, ht'⟩
    · exact quiet_nil sd p
    · refine quiet_step sd (s := .readingBinding d) (fun q hq => ?_) (fun q hq _ => ih q d t' hq hd hn ht')
      unfold act; rw [hq, h]; simp only [if_neg h1, if_neg h2, if_neg h3]
      rw [show (Scan.readingBinding d) = q.scan from (hq.trans h).symm]
  | @str n s w hs _ ih =>
    intro p d t h hd hn ht
    have eq : quote :: s ++ quote :: w = (quote :: s ++ [quote]) ++ w := by simp
    rw [eq] at ht
    rcases prefix_append_cases ht with ht | ⟨t', rfl, ht'⟩
    · rcases prefix_cons ht with rfl | ⟨t', rfl, ht'⟩
      · exact quiet_nil sd p
      · refine quiet_step sd (s := .readingString (.readingBinding d)) (fun q hq => ?_) (fun q hq _ => quiet_str sd hs q _ t' hq ht')
        unfold act; rw [hq, h]; simp only [if_neg hqr, if_neg hql, if_true]
    · obtain ⟨i, e, -⟩ := string_run sd hs p (Or.inr ⟨d, h⟩)
      exact quiet_append sd e ⟨rfl, rfl, rfl, rfl, rfl⟩ (ih _ d t' h hd hn ht')
  | @obj n u w hu _ ihu ihw =>
    intro p d t h hd hn ht
    rcases prefix_cons ht with rfl | ⟨t', rfl, ht'⟩
    · exact quiet_nil sd p
    · refine quiet_step sd (s := .readingBinding (d + 1)) (fun q hq => ?_) (fun q hq _ => ?_)
      · unfold act; rw [hq, h]; simp only [if_neg hlr, if_true]; rw [if_pos (by omega)]
      · rcases prefix_append_cases ht' with ht' | ⟨t'', rfl, ht''⟩
        · exact ihu q (d + 1) t' hq (by omega) (by omega) ht'
        · obtain ⟨i, e, -⟩ := body_run sd hu q (d + 1) hq (by omega) (by omega)
          refine quiet_append sd e ⟨rfl, rfl, rfl, rfl, rfl⟩ ?_
          rcases prefix_cons ht'' with rfl | ⟨t3, rfl, ht3⟩
          · exact quiet_nil sd _
          · refine quiet_step sd (s := .readingBinding d) (fun q' hq' => ?_) (fun q' hq' _ => ihw q' d t3 hq' hd hn ht3)
            unfold act; rw [hq']; dsimp only; rw [hq]; simp only [if_true]
            rw [if_neg (by omega), if_neg (by omega)]; simp

/-- Part of an object. -/
theorem quiet_obj {o t : Bytes} (ho : IsObj o) (ht : t <+: o) (hne : t ≠ o) (p : Parser B) (h : p.scan = .searchingBinding) :
    QuietRun sd p t := by
  obtain ⟨u, rfl, hu⟩ := ho
  rcases prefix_cons ht with rfl | ⟨t', rfl, ht'⟩
  · exact quiet_nil sd p
  · refine quiet_cons sd (p1 := { p with input := [lbrace], scan := .readingBinding 1 })
      (by simp [readByte, Parser.stores, h, act]) ⟨rfl, rfl, rfl, rfl, rfl⟩ ?_
    refine quiet_body sd hu _ 1 t' rfl (by omega) (by omega) ?_
    rcases prefix_append_cases ht' with ht' | ⟨t'', rfl, ht''⟩
    · exact ht'
    · rcases prefix_cons ht'' with rfl | ⟨t3, rfl, ht3⟩
      · simp
      · have : t3 = [] := by simpa using ht3
        subst this
        exact absurd rfl hne

/-- **C32, cut off.** A stream that ends inside the rows, after some whole rows and perhaps a part `t` of the next one: exactly the
rows asked for among the whole ones are delivered, the last ones by the call at the end. -/
theorem c32_truncated {d : Doc} (hd : d.Ok) {hv : H} (hh : sd.header (d.head ++ [rbrace, rbrace]) = .ok hv) {checked : Bool} {batch : Nat}
    (hb : 0 < batch) {limit : Option Nat} {offset : Nat} (hg : admits checked batch limit offset = true) {vs : List B}
    (hp : Parses sd.binding (window limit offset d.rows) vs) {o t : Bytes} (ho : IsObj o) (ht : t <+: o) (hne : t ≠ o)
    {cs : List Chunk} (hc : allBytes cs) (hcs : chunkBytes cs = d.upToRows ++ t) :
    ∃ batches rem, Batched batch vs batches rem ∧ Lazy.read sd checked batch limit offset cs =
      ([.header hv] ++ batches.map .bindings ++ tailCall rem, .count d.rows.length) := by
  obtain ⟨i, batches, rem, hbat, e⟩ := rows_run_ok sd hd hh hb limit offset hp
  obtain ⟨p', e', hq⟩ := quiet_obj sd ho ht hne ⟨.searchingBinding, i, batch, rem, d.rows.length, limit, offset⟩ rfl
  have f := run_running sd e t
  rw [e'] at f
  refine ⟨batches, rem, hbat, ?_⟩
  rw [read_run sd hg hc, hcs]
  simp only [readLoop, f, tailCall, hq.2.1, hq.2.2.1]
  simp

theorem readLoop_fail (cs ds : List Chunk) (h : allBytes cs) (c : Bool) : ∀ (p p' : Parser B) (o), run sd p (chunkBytes cs) = (o, .running p') →
    readLoop sd p (cs ++ .fail c :: ds) = (o, if c then .canceled else .corrupt) := by
  induction cs with
  | nil =>
    intro p p' o e
    simp only [chunkBytes, run, Prod.mk.injEq] at e
    simp [readLoop, ← e.1]
  | cons x cs ih =>
    intro p p' o e
    obtain ⟨l, rfl⟩ := h x (by simp)
    have ih := ih (fun c hc => h c (List.mem_cons_of_mem _ hc))
    simp only [chunkBytes, run_append] at e
    simp only [List.cons_append, readLoop]
    rcases hr : run sd p l with ⟨o1, p1 | e1 | _⟩
    · rw [hr] at e
      simp only [andThen, Prod.mk.injEq] at e
      have := ih p1 p' (run sd p1 (chunkBytes cs)).1 (by rw [← e.2])
      simp only [this, ← e.1]
    · rw [hr] at e; simp [andThen] at e
    · rw [hr] at e; simp [andThen] at e

/-- **C32, cancelled.** When the stream fails inside the rows, the full batches so far have been delivered and the rest of the
buffer is not; the outcome says whether the query was cancelled. -/
theorem c32_cancelled {d : Doc} (hd : d.Ok) {hv : H} (hh : sd.header (d.head ++ [rbrace, rbrace]) = .ok hv) {checked : Bool} {batch : Nat}
    (hb : 0 < batch) {limit : Option Nat} {offset : Nat} (hg : admits checked batch limit offset = true) {vs : List B}
    (hp : Parses sd.binding (window limit offset d.rows) vs) {o t : Bytes} (ho : IsObj o) (ht : t <+: o) (hne : t ≠ o)
    {cs ds : List Chunk} (hc : allBytes cs) (hcs : chunkBytes cs = d.upToRows ++ t) (c : Bool) :
    ∃ batches rem, Batched batch vs batches rem ∧ Lazy.read sd checked batch limit offset (cs ++ .fail c :: ds) =
      (.header hv :: batches.map .bindings, if c then .canceled else .corrupt) := by
  obtain ⟨i, batches, rem, hbat, e⟩ := rows_run_ok sd hd hh hb limit offset hp
  obtain ⟨p', e', hq⟩ := quiet_obj sd ho ht hne ⟨.searchingBinding, i, batch, rem, d.rows.length, limit, offset⟩ rfl
  have f := run_running sd e t
  rw [e'] at f
  refine ⟨batches, rem, hbat, ?_⟩
  unfold Lazy.read
  rw [if_pos hg, readLoop_fail sd cs ds hc c _ p' _ (by rw [hcs]; exact f)]
  simp

/-- **C32, malformed rows.** If the row asked for behind the well-formed ones is malformed, the full batches before it have been
delivered, and the read ends with the JSON error of that row. -/
theorem c32_malformed {d : Doc} (hd : d.Ok) {hv : H} (hh : sd.header (d.head ++ [rbrace, rbrace]) = .ok hv) {checked : Bool} {batch : Nat}
    (hb : 0 < batch) {limit : Option Nat} {offset : Nat} (hg : admits checked batch limit offset = true) {vs : List B} {ws ws' : List Bytes}
    {bad : Bytes} {x : E} (hwin : window limit offset d.rows = ws ++ bad :: ws') (hp : Parses sd.binding ws vs) (hbad : sd.binding bad = .error x)
    {cs : List Chunk} (hc : allBytes cs) {more : Bytes} (hcs : chunkBytes cs = d.upToRows ++ more) :
    ∃ batches rem, Batched batch vs batches rem ∧ Lazy.read sd checked batch limit offset cs =
      (.header hv :: batches.map .bindings, .jsonError x) := by
  have e := start_run sd hd.head hd.toBindings hh batch limit offset
  obtain ⟨batches, rem, e', hbat⟩ := rows_err sd hd.rows ⟨.searchingBinding, [], batch, [], 0, limit, offset⟩ vs ws ws' bad x rfl hb
    (by rw [select_zero]; exact hwin) hp hbad
  have f := run_running sd e d.rowsText
  rw [e'] at f
  refine ⟨batches, rem, by simpa using hbat, ?_⟩
  have g : run sd (Parser.new batch limit offset) (d.upToRows ++ more) = (.header hv :: batches.map .bindings, .err x) := by
    rw [run_append]
    unfold Doc.upToRows
    rw [f]
    simp [andThen]
  rw [read_run sd hg hc, hcs]
  simp only [readLoop, g]

/-- **C32, the order of calls.** Whatever the bytes, reading more of them only adds calls behind the earlier ones. -/
theorem c32_monotone (p : Parser B) (u v : Bytes) : (run sd p u).1 <+: (run sd p (u ++ v)).1 := by
  rw [run_append]
  rcases run sd p u with ⟨o, _ | _ | _⟩ <;> simp [andThen]

/-- **C32, the catch.** The reader is entered at all iff there is no limit, or no offset, or the limit exceeds the offset by 1000
(or, in a build without overflow checks, the offset exceeds the limit): the assertion takes `limit` for the end of the window,
the caller passes its size. -/
theorem c32_entered (checked : Bool) (limit : Option Nat) (offset : Nat) :
    admits checked ((limit.map (fun l => min 1000 l)).getD 1000) limit offset = true ↔
      ∀ l, limit = some l → offset = 0 ∨ 1000 + offset ≤ l ∨ (l < offset ∧ checked = false) := by
  cases limit with
  | none => simp [admits, noneOr]
  | some l =>
    simp only [admits, noneOr, Option.map_some, Option.getD_some, Option.some.injEq, forall_eq']
    by_cases h : l < offset
    · rw [if_pos h]
      cases checked <;> simp [h]
      omega
    · rw [if_neg h, decide_eq_true_eq]
      omega

/-- **C32, the catch.** Asking the server for a page of at most 1000 rows that is not the first one, with an offset up to the page size,
panics before anything is read. -/
theorem c32_second_page (checked : Bool) {limit offset : Nat} (h0 : 0 < offset) (h1 : offset ≤ limit) (h2 : limit ≤ 1000) (chunks : List Chunk) :
    serverRead sd checked (some limit) offset chunks = ([], .panic) := by
  have hn : ¬ admits checked (((some limit).map (fun l => min 1000 l)).getD 1000) (some limit) offset = true := by
    rw [c32_entered]
    intro h
    have := h limit rfl
    omega
  unfold serverRead Lazy.read
  rw [if_neg hn]

/-- **C32, the first page.** Without offset the reader is always entered. -/
theorem c32_first_page (checked : Bool) (limit : Option Nat) :
    admits checked ((limit.map (fun l => min 1000 l)).getD 1000) limit 0 = true :=
  (c32_entered checked limit 0).2 (fun _ _ => Or.inl rfl)

/-- The JavaScript variant differs in the last call only. -/
theorem js_calls (cs : List Chunk) : ∀ (p : Parser B), ∃ rem : List B, (readLoopJs sd p cs).2 = (readLoop sd p cs).2 ∧
    ∃ outs, (readLoop sd p cs).1 = outs ++ tailCall rem ∧
      (readLoopJs sd p cs).1 = outs.map .part ++ (if rem.isEmpty then [] else [.bare rem]) := by
  induction cs with
  | nil => intro p; exact ⟨p.buffer, rfl, [], by simp [readLoop, tailCall], by simp [readLoopJs]⟩
  | cons c cs ih =>
    intro p
    cases c with
    | fail c => exact ⟨[], rfl, [], by simp [readLoop, tailCall], by simp [readLoopJs]⟩
    | bytes l =>
      simp only [readLoop, readLoopJs]
      rcases run sd p l with ⟨o, p' | e | _⟩
      · obtain ⟨rem, h1, outs, h2, h3⟩ := ih p'
        refine ⟨rem, h1, o ++ outs, ?_, ?_⟩
        · simp [h2]
        · simp [h3]
      · exact ⟨[], rfl, o, by simp [tailCall], by simp⟩
      · exact ⟨[], rfl, o, by simp [tailCall], by simp⟩

/-- **C32, JavaScript.** The variant for JavaScript makes the same calls with the same outcome, except that the rows that do not fill
a batch arrive as a bare list instead of a partial result. -/
theorem c32_javascript (batch : Nat) (limit : Option Nat) (offset : Nat) (cs : List Chunk) :
    ∃ rem outs, (readLoop sd (Parser.new batch limit offset) cs).1 = outs ++ tailCall rem ∧
      (readLoopJs sd (Parser.new batch limit offset) cs).1 = outs.map .part ++ (if rem.isEmpty then [] else [.bare rem]) ∧
      (readLoopJs sd (Parser.new batch limit offset) cs).2 = (readLoop sd (Parser.new batch limit offset) cs).2 := by
  obtain ⟨rem, h1, outs, h2, h3⟩ := js_calls sd cs (Parser.new batch limit offset)
  exact ⟨rem, outs, h2, h3, h1⟩

/-! ## C33 -/

/-- **C33.** Reading a string - in the header or inside a binding at any depth - whatever quotes (escaped), braces, brackets it holds,
makes no call and changes nothing but the buffered text, which, in the window, grows by exactly the string. -/
theorem c33_strings {s : Bytes} (hs : StrBody s) (p : Parser B) (h : p.scan = .readingHead ∨ ∃ d, p.scan = .readingBinding d) :
    ∃ i, run sd p (quote :: s ++ [quote]) = ([], .running { p with input := i }) ∧
      (p.stores = true → i = p.input ++ (quote :: s ++ [quote])) := string_run sd hs p h

theorem Body.append {n : Nat} {u v : Bytes} (hu : Body n u) (hv : Body n v) : Body n (u ++ v) := by
  induction hu with
  | nil => exact hv
  | byte h1 h2 h3 _ ih => exact .byte h1 h2 h3 (ih hv)
  | @str n s w hs _ ih =>
    have := Body.str hs (ih hv)
    simpa using this
  | @obj n u w hu _ _ ih =>
    have := Body.obj hu (ih hv)
    simpa using this

theorem Body.bytes {n : Nat} {w : Bytes} (h : ∀ c ∈ w, c ≠ quote ∧ c ≠ lbrace ∧ c ≠ rbrace) : Body n w := by
  induction w with
  | nil => exact .nil
  | cons c w ih =>
    obtain ⟨h1, h2, h3⟩ := h c (by simp)
    exact .byte h1 h2 h3 (ih (fun c hc => h c (List.mem_cons_of_mem _ hc)))

theorem Body.string {n : Nat} {s : Bytes} (hs : StrBody s) : Body n (quote :: s ++ [quote]) := .str hs .nil

theorem json_body {k : JSort} {n : Nat} {w : Bytes} (h : Json k n w) : Body n w := by
  have hsp : ∀ {n : Nat} {a : Bytes}, (∀ c ∈ a, c = 0x20 ∨ c = 0x09 ∨ c = 0x0A ∨ c = 0x0D) → Body n a := by
    intro n a ha
    refine Body.bytes (fun c hc => ?_)
    rcases ha c hc with rfl | rfl | rfl | rfl <;> decide
  have one : ∀ {n : Nat} (c : Byte), c ≠ quote ∧ c ≠ lbrace ∧ c ≠ rbrace → Body n [c] := by
    intro n c hc
    exact Body.bytes (fun x hx => by simp only [List.mem_singleton] at hx; rw [hx]; exact hc)
  induction h with
  | atom h => exact Body.bytes h
  | str h => exact Body.string h
  | @arr n w _ ih =>
    exact Body.append (u := 0x5B :: w) (Body.append (u := [0x5B]) (one _ (by decide)) ih) (one _ (by decide))
  | @obj n w _ ih => exact .obj ih .nil
  | spaced ha hb _ ih => exact (Body.append (Body.append (hsp ha) ih) (hsp hb))
  | noElements => exact .nil
  | one _ ih => exact ih
  | more _ _ ih1 ih2 => exact Body.append ih1 (Body.append (u := [0x2C]) (one _ (by decide)) ih2)
  | noMembers => exact .nil
  | @member n k w hk _ ih =>
    have h1 : Body n (quote :: k ++ [quote] ++ [0x3A]) := Body.append (Body.string hk) (one _ (by decide))
    have := Body.append h1 ih
    simpa using this
  | @members n k w v hk _ _ ih1 ih2 =>
    have h1 : Body n (quote :: k ++ [quote] ++ [0x3A]) := Body.append (Body.string hk) (one _ (by decide))
    have h2 := Body.append h1 (Body.append ih1 (Body.append (u := [0x2C]) (one _ (by decide)) ih2))
    simpa using h2

/-- **C33.** Every JSON object (with white space, nested values, any strings) that nests objects less than 256 deep is a row in the
sense of C32: it is neither cut nor run together with the next one. -/
theorem c33_objects {w : Bytes} (h : Json .members 254 w) : IsObj (lbrace :: w ++ [rbrace]) := ⟨w, rfl, json_body h⟩

/-- **C33, the catch.** In the meta data strings are not recognised: the text handed to the JSON parser ends at the first closing
brace, be it inside a string. If that text does not parse, the whole read fails, after all rows. -/
theorem c33_meta {d : Doc} (hd : d.Ok) {hv : H} (hh : sd.header (d.head ++ [rbrace, rbrace]) = .ok hv) {x : E}
    (hm : sd.metadata (lbrace :: d.meta_ ++ [rbrace]) = .error x) {checked : Bool} {batch : Nat} (hb : 0 < batch) {limit : Option Nat} {offset : Nat}
    (hg : admits checked batch limit offset = true) {vs : List B} (hp : Parses sd.binding (window limit offset d.rows) vs)
    {cs : List Chunk} (hc : allBytes cs) (hcs : chunkBytes cs = d.text) :
    ∃ batches rem, Batched batch vs batches rem ∧ Lazy.read sd checked batch limit offset cs =
      (.header hv :: batches.map .bindings, .jsonError x) := by
  obtain ⟨i, batches, rem, hbat, e⟩ := rows_run_ok sd hd hh hb limit offset hp
  have main : run sd (⟨.searchingBinding, i, batch, rem, d.rows.length, limit, offset⟩ : Parser B)
      ([rbrack] ++ d.toMeta ++ [lbrace] ++ d.meta_ ++ [rbrace] ++ d.rest) = ([], .err x) := by
    have hrl : ¬ (rbrack = lbrace) := by decide
    have e1 : run sd (⟨.searchingBinding, i, batch, rem, d.rows.length, limit, offset⟩ : Parser B) [rbrack] =
        ([], .running ⟨.searchingMeta, i, batch, rem, d.rows.length, limit, offset⟩) := by
      simp [run, readByte, Parser.stores, act, hrl]
    have e2 := idle_run sd (c0 := lbrace) (st := .searchingMeta) (fun p c h hc => by
      simp [readByte, Parser.stores, h, act, hc]) d.toMeta ⟨.searchingMeta, i, batch, rem, d.rows.length, limit, offset⟩ rfl hd.toMeta
    have e3 : run sd (⟨.searchingMeta, i, batch, rem, d.rows.length, limit, offset⟩ : Parser B) [lbrace] =
        ([], .running ⟨.readingMeta, [lbrace], batch, rem, d.rows.length, limit, offset⟩) := by
      simp [run, readByte, Parser.stores, act]
    have e4 : ∀ (w j : Bytes), rbrace ∉ w → run sd (⟨.readingMeta, j, batch, rem, d.rows.length, limit, offset⟩ : Parser B) w =
        ([], .running ⟨.readingMeta, j ++ w, batch, rem, d.rows.length, limit, offset⟩) := by
      intro w
      induction w with
      | nil => intro j _; simp [run]
      | cons c w ih =>
        intro j hc
        simp only [List.mem_cons, not_or] at hc
        have : ¬ (c = rbrace) := fun e => hc.1 e.symm
        simp only [run, readByte, Parser.stores, act, if_true, if_neg this]
        rw [ih _ hc.2]; simp
    have e5 : run sd (⟨.readingMeta, [lbrace] ++ d.meta_, batch, rem, d.rows.length, limit, offset⟩ : Parser B) ([rbrace] ++ d.rest) =
        ([], .err x) := by
      simp only [List.cons_append, List.nil_append, run, readByte, Parser.stores, act, if_true]
      rw [show lbrace :: (d.meta_ ++ [rbrace]) = lbrace :: d.meta_ ++ [rbrace] from rfl, hm]
    have f := run_running sd e1 d.toMeta
    rw [e2] at f
    have f := run_running sd f [lbrace]
    rw [e3] at f
    have f := run_running sd f d.meta_
    rw [e4 d.meta_ _ hd.meta_] at f
    have f := run_running sd f ([rbrace] ++ d.rest)
    rw [e5] at f
    simpa using f
  have f := run_running sd e ([rbrack] ++ d.toMeta ++ [lbrace] ++ d.meta_ ++ [rbrace] ++ d.rest)
  rw [main] at f
  have et : d.text = d.upToRows ++ ([rbrack] ++ d.toMeta ++ [lbrace] ++ d.meta_ ++ [rbrace] ++ d.rest) := by simp [Doc.text]
  refine ⟨batches, rem, hbat, ?_⟩
  rw [read_run sd hg hc, hcs, et]
  simp only [readLoop, f]
  simp

/-- **C33, the other catch.** 256 nested objects are too many: the `u8` overflows. -/
theorem c33_depth (p : Parser B) (h : p.scan = .searchingBinding) (rest : Bytes) :
    run sd p (List.replicate 256 lbrace ++ rest) = ([], .panic) := by
  have hlr : ¬ (lbrace = rbrace) := by decide
  have go : ∀ (n d : Nat) (p : Parser B), p.scan = .readingBinding d → n + d = 256 → 1 ≤ n →
      run sd p (List.replicate n lbrace ++ rest) = ([], .panic) := by
    intro n
    induction n with
    | zero => intro d p _ _ h; omega
    | succ n ih =>
      intro d p h hn _
      simp only [List.replicate_succ, List.cons_append, run, readByte]
      have hact : ∀ q : Parser B, q.scan = .readingBinding d → act sd q lbrace =
          if d + 1 < 256 then .ok { q with scan := .readingBinding (d + 1) } none else .panic := by
        intro q hq
        unfold act; rw [hq]; simp only [if_neg hlr, if_true]
      rw [hact _ ((store_scan p lbrace).trans h)]
      by_cases hd : d + 1 < 256
      · rw [if_pos hd]
        dsimp only
        rw [ih (d + 1) _ rfl (by omega) (by omega)]
        rfl
      · rw [if_neg hd]
  rw [show (256 : Nat) = 255 + 1 from rfl, List.replicate_succ, List.cons_append]
  have e : readByte sd p lbrace = .ok { p with input := [lbrace], scan := .readingBinding 1 } none := by
    simp [readByte, Parser.stores, h, act]
  simp only [run, e]
  rw [go 255 1 _ rfl rfl (by omega)]
  rfl

/-! ## An example -/

/-- `{"h":{}` `,` `[{"}":{}},{}]` `,{m}`. -/
def exampleDoc : Doc :=
  { head := [lbrace, quote, 0x68, quote, 0x3A, lbrace]
    toBindings := [0x2C]
    rows := [[lbrace, quote, rbrace, quote, 0x3A, lbrace, rbrace, rbrace], [lbrace, rbrace]]
    rowsText := [lbrace, quote, rbrace, quote, 0x3A, lbrace, rbrace, rbrace, 0x2C, lbrace, rbrace]
    toMeta := [0x2C]
    meta_ := [0x6D]
    rest := [] }

theorem example_ok : exampleDoc.Ok where
  head := .byte (by decide) (by decide) (.str (s := [0x68]) (.plain (by decide) (by decide) .nil)
    (.byte (by decide) (by decide) (.byte (by decide) (by decide) .nil)))
  toBindings := by decide
  rows := .row (o := [lbrace, quote, rbrace, quote, 0x3A, lbrace, rbrace, rbrace])
    ⟨[quote, rbrace, quote, 0x3A, lbrace, rbrace], rfl, .str (s := [rbrace]) (.plain (by decide) (by decide) .nil)
      (.byte (by decide) (by decide) (by decide) (.obj (u := []) .nil .nil))⟩
    (.sep (by decide) (by decide) (.row (o := [lbrace, rbrace]) ⟨[], rfl, .nil⟩ .nil))
  toMeta := by decide
  meta_ := by decide

/-- The JSON parser that accepts everything and keeps the text. -/
def keepSerde : Serde Bytes Bytes Bytes Unit := ⟨.ok, .ok, .ok⟩

/-- The hypotheses of `c32_complete` can be met: the second row of the example, with limit 1 and offset 1. -/
theorem c32_example : Parses keepSerde.binding (window (some 1) 1 exampleDoc.rows) [[lbrace, rbrace]] ∧
    (readLoop keepSerde (Parser.new 1 (some 1) 1) [.bytes exampleDoc.text]) =
      ([.header (exampleDoc.head ++ [rbrace, rbrace]), .bindings [[lbrace, rbrace]], .metadata [lbrace, 0x6D, rbrace]], .count 2) :=
  ⟨rfl, rfl⟩

end Verif.Props
