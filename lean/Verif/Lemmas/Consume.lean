import Verif.Lemmas.Scan
/-! Whole calls of `consume`. -/
namespace Ratel
open Spec

set_option linter.unusedSectionVars false

namespace Lex
variable [Unicode]
theorem decodeFirst_none {r : Bytes} (h : decodeFirst r = none) (h0 : 128 ≤ next r) : BadUtf8 r := by
  cases r with
  | nil => simp [next] at h0
  | cons x r =>
    simp only [next, List.headD_cons] at h0
    refine ⟨h0, ?_⟩
    have hx : ¬ x < 0x80 := by simpa using h0
    rw [decodeFirst.eq_def] at h
    simp only at h
    rw [if_neg hx] at h
    by_cases h1 : x < 0xC0
    · exact Or.inl h1
    rw [if_neg h1] at h
    refine Or.inr ?_
    have cont : ∀ {b : Byte}, (!isCont b) = true → b < 0x80 ∨ 0xC0 ≤ b := by
      intro b hb
      simp [isCont] at hb
      exact hb
    unfold announced
    match r, h with
    | [], _ => left; simp; repeat' split
               all_goals omega
    | [y], h =>
      simp only at h
      split at h
      · rename_i hy
        right
        refine ⟨y, ?_, cont hy⟩
        repeat' split
        all_goals simp
      · split at h
        · simp at h
        · left
          rename_i h2
          rw [if_neg h2]
          split <;> simp
    | [y, z], h =>
      simp only at h
      split at h
      · rename_i hy
        right
        refine ⟨y, ?_, cont hy⟩
        repeat' split
        all_goals simp
      · split at h
        · simp at h
        · rename_i h2
          rw [if_neg h2]
          split at h
          · rename_i hz
            right
            refine ⟨z, ?_, cont hz⟩
            repeat' split
            all_goals simp
          · split at h
            · simp at h
            · rename_i h3
              left
              rw [if_neg h3]
              simp
    | y :: z :: w :: r, h =>
      right
      simp only at h
      split at h
      · rename_i hy
        refine ⟨y, ?_, cont hy⟩
        repeat' split
        all_goals simp
      · split at h
        · simp at h
        · rename_i h2
          rw [if_neg h2]
          split at h
          · rename_i hz
            refine ⟨z, ?_, cont hz⟩
            repeat' split
            all_goals simp
          · split at h
            · simp at h
            · rename_i h3
              rw [if_neg h3]
              split at h
              · rename_i hw
                exact ⟨w, by simp, cont hw⟩
              · simp at h

theorem decodeFirst_bad {r : Bytes} (h : BadUtf8 r) : decodeFirst r = none := by
  cases r with
  | nil => exact h.elim
  | cons x r =>
    obtain ⟨h0, h⟩ := h
    have hx : ¬ x < 0x80 := by simpa using h0
    rw [decodeFirst.eq_def]
    simp only
    rw [if_neg hx]
    have cont : ∀ {b : Byte}, (b < 0x80 ∨ 0xC0 ≤ b) → (!isCont b) = true := by
      intro b hb
      simp [isCont]
      exact hb
    rcases h with h | h
    · rw [if_pos h]
    by_cases hc : x < 0xC0
    · rw [if_pos hc]
    rw [if_neg hc]
    match r, h with
    | [], _ => rfl
    | [y], h =>
      simp only [announced] at h ⊢
      by_cases hE : x < 0xE0
      · rw [if_pos hE] at h
        rcases h with h | ⟨b, hb, h⟩
        · simp at h
        · simp at hb; subst hb; rw [if_pos (cont h)]
      · rw [if_neg hE]; split <;> rfl
    | [y, z], h =>
      simp only [announced] at h ⊢
      by_cases hE : x < 0xE0
      · rw [if_pos hE] at h
        rcases h with h | ⟨b, hb, h⟩
        · simp at h
        · simp at hb; subst hb; rw [if_pos (cont h)]
      · rw [if_neg hE] at h ⊢
        split
        · rfl
        · rename_i hy
          by_cases hF : x < 0xF0
          · rw [if_pos hF] at h
            rcases h with h | ⟨b, hb, h⟩
            · simp at h
            · simp at hb
              rcases hb with rfl | rfl
              · exact absurd (cont h) hy
              · rw [if_pos (cont h)]
          · rw [if_neg hF]; split <;> rfl
    | y :: z :: w :: r, h =>
      simp only [announced] at h ⊢
      by_cases hE : x < 0xE0
      · rw [if_pos hE] at h
        rcases h with h | ⟨b, hb, h⟩
        · simp at h
        · simp at hb; subst hb; rw [if_pos (cont h)]
      · rw [if_neg hE] at h ⊢
        split
        · rfl
        · rename_i hy
          by_cases hF : x < 0xF0
          · rw [if_pos hF] at h
            rcases h with h | ⟨b, hb, h⟩
            · simp at h; omega
            · simp at hb
              rcases hb with rfl | rfl
              · exact absurd (cont h) hy
              · rw [if_pos (cont h)]
          · rw [if_neg hF] at h ⊢
            split
            · rfl
            · rename_i hz
              rcases h with h | ⟨b, hb, h⟩
              · simp at h; omega
              · simp at hb
                rcases hb with rfl | rfl | rfl
                · exact absurd (cont h) hy
                · exact absurd (cont h) hz
                · rw [if_pos (cont h)]

theorem templateGo_none {r : Bytes} {i : Nat} (h : templateGo r i = none) : TplBody r := by
  fun_induction templateGo r i
  case case1 => exact .nil
  case case2 => simp at h
  case case3 => exact .dollar (by simp) .nil
  case case4 => simp at h
  case case5 hd _ ih => exact .dollar (by simpa using hd) (ih h)
  case case6 => simp at h
  case case7 => simp at h
  case case8 hd _ _ ih => exact .esc hd (ih h)
  case case9 h1 h2 h3 ih => exact .plain h1 h3 h2 (ih h)

/-- `asi` after a token. -/
def asiAt (t : Token) (a : Asi) : Asi :=
  if t = .Semicolon then .ExplicitSemicolon else if closes t then .ImplicitSemicolon else a

/-- What a handler achieves, with the semicolon flag. -/
def Done (l l' : Lex) : Prop :=
  ∃ p, Over p { l with asi := asiAt l'.token l.asi } l' ∧ Lexeme l'.token p l'.rest

theorem closes_keywords : ∀ x ∈ keywords, closes x.2 = false := by decide

theorem closes_wordToken (w : Bytes) : closes (wordToken w) = false := by
  unfold wordToken
  cases h : keywords.lookup w with
  | none => rfl
  | some k => exact closes_keywords _ (mem_of_lookup h)

theorem closes_puncts : ∀ x ∈ puncts, closes x.2 = true → x.1 = bs!";" ∨ x.1 = bs!")" ∨ x.1 = bs!"}" := by decide

theorem closes_lexeme {t : Token} {p r : Bytes} (h : Lexeme t p r) (hc : closes t = true) :
    p = [] ∧ next r = 0 ∨ p = bs!";" ∨ p = bs!")" ∨ p = bs!"}" := by
  cases h with
  | eof h => exact Or.inl ⟨rfl, h⟩
  | punct h => exact Or.inr (closes_puncts _ h hc)
  | word => rw [closes_wordToken] at hc; simp at hc
  | _ => simp [closes] at hc

theorem Done.of_lexed {l l' : Lex} (h : Lexed l l') (h0 : next l.rest ∉ [0, #b';', #b')', #b'}']) : Done l l' := by
  obtain ⟨p, ho, hl⟩ := h
  have : asiAt l'.token l.asi = l.asi := by
    have hc : closes l'.token = false := by
      cases hc : closes l'.token with
      | false => rfl
      | true =>
        exfalso
        apply h0
        rw [ho.rest]
        rcases closes_lexeme hl hc with ⟨rfl, h⟩ | rfl | rfl | rfl
        · simp [h]
        · simp [next]
        · simp [next]
        · simp [next]
    have hs : l'.token ≠ .Semicolon := by intro h; rw [h] at hc; simp [closes] at hc
    simp [asiAt, hc, hs]
  refine ⟨p, ?_, hl⟩
  rw [this]
  exact ho

theorem sat_done {l : Lex} {x : Out Lex} {O A T : Prop} (h : x.Sat (Lexed l) O A T)
    (h0 : next l.rest ∉ [0, #b';', #b')', #b'}']) : x.Sat (Done l) O A T :=
  h.mono (fun _ _ h => Done.of_lexed h h0) id id id

/-- The bytes of the handlers for few bytes. -/
def bytesOf : Handler → Option (List Byte)
  | .COL => some [#b':']
  | .COM => some [#b',']
  | .PNO => some [#b'(']
  | .BTO => some [#b'[']
  | .BTC => some [#b']']
  | .BEO => some [#b'{']
  | .QST => some [#b'?']
  | .TLD => some [#b'~']
  | .SEM => some [#b';']
  | .PNC => some [#b')']
  | .BEC => some [#b'}']
  | .EQL => some [#b'=']
  | .EXL => some [#b'!']
  | .LSS => some [#b'<']
  | .MOR => some [#b'>']
  | .CRT => some [#b'^']
  | .AMP => some [#b'&']
  | .PIP => some [#b'|']
  | .PLS => some [#b'+']
  | .MIN => some [#b'-']
  | .ATR => some [#b'*']
  | .PRC => some [#b'%']
  | .ZER => some [#b'0']
  | .TPL => some [#b'`']
  | .PRD => some [#b'.']
  | .SLH => some [#b'/']
  | .EOF => some [0]
  | .ERR => some [#b'#', #b'@', 0x7f]
  | .QOT => some [#b'"', #b'\'']
  | _ => none

theorem bytesOf_spec : ∀ c, (match bytesOf (handlerOf c) with
    | some l => l.contains c
    | none => true) = true := by
  apply byte_forall
  decide +kernel

theorem mem_bytesOf {c : Byte} {h : Handler} (hh : handlerOf c = h) {l : List Byte} (hd : bytesOf h = some l) :
    c ∈ l := by
  have := bytesOf_spec c
  rw [hh, hd] at this
  simpa using this

theorem handler_byte {c d : Byte} {h : Handler} (hh : handlerOf c = h) (hd : bytesOf h = some [d]) : c = d := by
  simpa using mem_bytesOf hh hd

theorem space_of_ws : ∀ {c : Byte}, handlerOf c = .WS → isSpace c = true := by
  intro c
  revert c
  apply byte_forall
  decide +kernel

theorem ws_of_space : ∀ {c : Byte}, isSpace c = true → handlerOf c = .WS := by
  intro c
  revert c
  apply byte_forall
  decide +kernel


theorem runHandler_label (again : Lex → Out Lex) (h : Handler) (t : Trie) (ht : labelTrie h = some t) (l : Lex) :
    runHandler again h l = l.labelHandler t := by
  unfold runHandler
  split <;> first | (simp [labelTrie] at ht; done) | simp [ht]

theorem label_done (again : Lex → Out Lex) {l : Lex} {c : Byte} {r : Bytes} (hr : l.rest = c :: r)
    (h : ∃ t, labelTrie (handlerOf c) = some t) (hn : next l.rest ∉ [0, #b';', #b')', #b'}']) {O A T : Prop} :
    (runHandler again (handlerOf c) l).Sat (Done l) O A T := by
  obtain ⟨t, ht⟩ := h
  rw [runHandler_label _ _ _ ht, labelHandler_eq_word hr ht]
  exact .of_lexed (word_lexeme hr (legal_of_handler ht).2) hn

set_option maxHeartbeats 2000000 in
/-- The handler for a byte that starts neither white space nor a comment. -/
theorem runHandler_spec (again : Lex → Out Lex) (l : Lex) (hw : isSpace (next l.rest) = false)
    (hs : next l.rest ≠ #b'/') :
    (runHandler again (handlerOf (next l.rest)) l).Sat (Done l) (ReadsBehind l.rest) (Panics l.rest) False := by
  by_cases h0 : next l.rest = 0
  · rw [h0]
    refine ⟨[], ⟨rfl, rfl, rfl, rfl, rfl⟩, .eof h0⟩
  · obtain ⟨r, hr⟩ := readByte_ne (l := l) h0
    rw [readByte_eq_next] at hr
    generalize hce : next l.rest = c at h0 hr
    have hc0 : c ≠ 0 := h0
    have hnn : handlerOf c ∉ [Handler.EOF, .SEM, .PNC, .BEC] → next l.rest ∉ [0, #b';', #b')', #b'}'] := by
      rw [hce]
      intro h1 h2
      simp only [List.mem_cons, List.not_mem_nil, or_false] at h2
      rcases h2 with rfl | rfl | rfl | rfl <;> exact h1 (by decide)
    rw [hce] at hw hs
    cases hh : handlerOf c
    case COL =>
      obtain rfl : c = #b':' := handler_byte hh rfl
      exact (sat_done (lexed_single hr .Colon (by decide) (by decide) (by decide)) (by simp [hr, next])).mono (fun _ _ h => h) False.elim False.elim id
    case COM =>
      obtain rfl : c = #b',' := handler_byte hh rfl
      exact (sat_done (lexed_single hr .Comma (by decide) (by decide) (by decide)) (by simp [hr, next])).mono (fun _ _ h => h) False.elim False.elim id
    case PNO =>
      obtain rfl : c = #b'(' := handler_byte hh rfl
      exact (sat_done (lexed_single hr .ParenOpen (by decide) (by decide) (by decide)) (by simp [hr, next])).mono (fun _ _ h => h) False.elim False.elim id
    case BTO =>
      obtain rfl : c = #b'[' := handler_byte hh rfl
      exact (sat_done (lexed_single hr .BracketOpen (by decide) (by decide) (by decide)) (by simp [hr, next])).mono (fun _ _ h => h) False.elim False.elim id
    case BTC =>
      obtain rfl : c = #b']' := handler_byte hh rfl
      exact (sat_done (lexed_single hr .BracketClose (by decide) (by decide) (by decide)) (by simp [hr, next])).mono (fun _ _ h => h) False.elim False.elim id
    case BEO =>
      obtain rfl : c = #b'{' := handler_byte hh rfl
      exact (sat_done (lexed_single hr .BraceOpen (by decide) (by decide) (by decide)) (by simp [hr, next])).mono (fun _ _ h => h) False.elim False.elim id
    case QST =>
      obtain rfl : c = #b'?' := handler_byte hh rfl
      exact (sat_done (lexed_single hr .OperatorConditional (by decide) (by decide) (by decide)) (by simp [hr, next])).mono (fun _ _ h => h) False.elim False.elim id
    case TLD =>
      obtain rfl : c = #b'~' := handler_byte hh rfl
      exact (sat_done (lexed_single hr .OperatorBitwiseNot (by decide) (by decide) (by decide)) (by simp [hr, next])).mono (fun _ _ h => h) False.elim False.elim id
    case SEM =>
      obtain rfl : c = #b';' := handler_byte hh rfl
      rw [runHandler, bump_moveTo hr]
      exact ⟨[_], ⟨rfl, rfl, hr, rfl, rfl⟩, .punct (t := .Semicolon) (by decide) (punct_max (by rw [show extensions [_] = [] by decide]; simp)) (by simp)⟩
    case PNC =>
      obtain rfl : c = #b')' := handler_byte hh rfl
      rw [runHandler, bump_moveTo hr]
      exact ⟨[_], ⟨rfl, rfl, hr, rfl, rfl⟩, .punct (t := .ParenClose) (by decide) (punct_max (by rw [show extensions [_] = [] by decide]; simp)) (by simp)⟩
    case BEC =>
      obtain rfl : c = #b'}' := handler_byte hh rfl
      rw [runHandler, bump_moveTo hr]
      exact ⟨[_], ⟨rfl, rfl, hr, rfl, rfl⟩, .punct (t := .BraceClose) (by decide) (punct_max (by rw [show extensions [_] = [] by decide]; simp)) (by simp)⟩
    case EQL =>
      obtain rfl : c = #b'=' := handler_byte hh rfl
      exact (sat_done (lexed_eql hr) (by simp [hr, next])).mono (fun _ _ h => h) False.elim False.elim id
    case EXL =>
      obtain rfl : c = #b'!' := handler_byte hh rfl
      exact (sat_done (lexed_exl hr) (by simp [hr, next])).mono (fun _ _ h => h) False.elim False.elim id
    case LSS =>
      obtain rfl : c = #b'<' := handler_byte hh rfl
      exact (sat_done (lexed_lss hr) (by simp [hr, next])).mono (fun _ _ h => h) False.elim False.elim id
    case MOR =>
      obtain rfl : c = #b'>' := handler_byte hh rfl
      exact (sat_done (lexed_mor hr) (by simp [hr, next])).mono (fun _ _ h => h) False.elim False.elim id
    case CRT =>
      obtain rfl : c = #b'^' := handler_byte hh rfl
      exact (sat_done (lexed_crt hr) (by simp [hr, next])).mono (fun _ _ h => h) False.elim False.elim id
    case AMP =>
      obtain rfl : c = #b'&' := handler_byte hh rfl
      exact (sat_done (lexed_amp hr) (by simp [hr, next])).mono (fun _ _ h => h) False.elim False.elim id
    case PIP =>
      obtain rfl : c = #b'|' := handler_byte hh rfl
      exact (sat_done (lexed_pip hr) (by simp [hr, next])).mono (fun _ _ h => h) False.elim False.elim id
    case PLS =>
      obtain rfl : c = #b'+' := handler_byte hh rfl
      exact (sat_done (lexed_pls hr) (by simp [hr, next])).mono (fun _ _ h => h) False.elim False.elim id
    case MIN =>
      obtain rfl : c = #b'-' := handler_byte hh rfl
      exact (sat_done (lexed_min hr) (by simp [hr, next])).mono (fun _ _ h => h) False.elim False.elim id
    case ATR =>
      obtain rfl : c = #b'*' := handler_byte hh rfl
      exact (sat_done (lexed_atr hr) (by simp [hr, next])).mono (fun _ _ h => h) False.elim False.elim id
    case PRC =>
      obtain rfl : c = #b'%' := handler_byte hh rfl
      exact (sat_done (lexed_prc hr) (by simp [hr, next])).mono (fun _ _ h => h) False.elim False.elim id
    case ZER =>
      obtain rfl : c = #b'0' := handler_byte hh rfl
      exact (sat_done (lexed_zer hr) (by simp [hr, next])).mono (fun _ _ h => h) False.elim False.elim id
    case TPL =>
      obtain rfl : c = #b'`' := handler_byte hh rfl
      exact (sat_done (lexed_tpl hr) (by simp [hr, next])).mono (fun _ _ h => h) (fun h => hr ▸ .template (templateGo_none h)) False.elim id
    case PRD =>
      obtain rfl : c = #b'.' := handler_byte hh rfl
      exact (sat_done (lexed_prd hr) (by simp [hr, next])).mono (fun _ _ h => h) (fun h => hr ▸ .dot h)
        (fun ⟨s, c, t, h1, h2, h3⟩ => by rw [hr, h1]; exact .dot h2 h3) id
    case SLH =>
      obtain rfl : c = #b'/' := handler_byte hh rfl
      exact absurd rfl hs
    case WS =>
      have := space_of_ws hh
      simp [this] at hw
    case EOF => exact absurd (handler_byte hh rfl) hc0
    case ERR =>
      have hc : c = #b'#' ∨ c = #b'@' ∨ c = 0x7f := by
        simpa using mem_bytesOf hh rfl
      have hl : (l.single .UnexpectedToken).Sat (Lexed l) False False False := by
        rw [single, bump_moveTo hr]
        exact ⟨[c], ⟨rfl, rfl, hr, rfl, rfl⟩, .badByte hc⟩
      exact (sat_done hl (hnn (by rw [hh]; decide))).mono (fun _ _ h => h) False.elim False.elim id
    case DIG =>
      have hc : isDigit c = true ∧ c ≠ #b'0' := by
        revert hh
        clear hr hnn hc0 hce h0
        revert c
        exact byte_forall (by decide +kernel)
      exact (sat_done (lexed_dig hr hc.1 hc.2) (hnn (by rw [hh]; decide))).mono (fun _ _ h => h) False.elim False.elim id
    case QOT =>
      have hc : c = #b'"' ∨ c = #b'\'' := by
        simpa using mem_bytesOf hh rfl
      exact (sat_done (lexed_qot hr hc) (hnn (by rw [hh]; decide))).mono (fun _ _ h => h) False.elim False.elim id
    case UNI =>
      have hc : 128 ≤ next l.rest := by
        rw [hce]
        revert hh
        clear hr hnn hc0 hce h0
        revert c
        exact byte_forall (by decide +kernel)
      exact (sat_done (lexed_uni hc) (hnn (by rw [hh]; decide))).mono (fun _ _ h => h)
        (fun h => .char (decodeFirst_none h hc)) False.elim id
    case IDT =>
      have h1 : labelTrie (handlerOf c) = none := by rw [hh]; rfl
      rw [runHandler, idt_eq hr h1]
      exact .of_lexed (word_lexeme hr (wordStart_of_idt hh)) (hnn (by rw [hh]; decide))
    all_goals
      have h1 : ∃ t, labelTrie (handlerOf c) = some t := by rw [hh]; exact ⟨_, rfl⟩
      rw [← hh]
      exact label_done again hr h1 (hnn (by rw [hh]; decide))

/-- `consume` without the reset of `asi`. -/
def scanAll (l : Lex) : Out Lex := scan (l.rest.length + 1) l

theorem consume_eq (l : Lex) : l.consume = scanAll { l with asi := .NoSemicolon } := rfl

theorem slh_line {again : Lex → Out Lex} {l : Lex} {s r : Bytes} (h : ∀ b ∈ s, b ≠ 0 ∧ b ≠ #b'\n')
    (hr : next r = 0 ∨ next r = #b'\n') (hl : l.rest = #b'/' :: #b'/' :: s ++ r) :
    l.slh again = again (l.moveTo r (l.index + (s.length + 2))) := by
  rw [slh, bump_moveTo (c := #b'/') (r := #b'/' :: s ++ r) hl]
  simp only [Out.bind_ok, readByte, rest_moveTo, List.cons_append, List.headD_cons]
  rw [if_pos (by trivial), bump_moveTo (c := #b'/') (r := s ++ r) rfl]
  simp only [Out.bind_ok, moveTo_moveTo, index_moveTo, skipWhile, skipWhileGo_eq, rest_moveTo]
  have hs : ∀ b ∈ s, (b != 0 && b != #b'\n') = true := by
    intro b hb
    simpa using h b hb
  rw [List.takeWhile_append_of_pos hs, List.dropWhile_append_of_pos hs]
  cases r with
  | nil => simp; congr 2; omega
  | cons a r =>
    simp [next] at hr
    rw [List.takeWhile_cons, List.dropWhile_cons]
    rcases hr with rfl | rfl <;> simp <;> congr 2 <;> omega

theorem blockCommentGo_closed {s r : Bytes} {i : Nat} (h : ∀ b ∈ s, b ≠ 0) (h' : ¬ bs!"*/" <:+: s) :
    blockCommentGo (s ++ #b'*' :: #b'/' :: r) i = (true, r, i + (s.length + 2)) := by
  induction s generalizing i with
  | nil => simp [blockCommentGo]
  | cons c s ih =>
    have ih' := @ih (i + 1) (fun b hb => h b (by simp [hb])) (fun hh => h' (hh.trans (List.suffix_cons c s).isInfix))
    rw [List.cons_append, blockCommentGo.eq_def]
    simp only
    by_cases hc : c = #b'*'
    · rw [if_pos hc]
      subst hc
      cases s with
      | nil => simp [blockCommentGo]
      | cons d s =>
        have hd : d ≠ #b'/' := by
          rintro rfl
          exact h' ⟨[], s, rfl⟩
        have hd0 : d ≠ 0 := h d (by simp)
        simp only [List.cons_append] at ih' ⊢
        rw [if_neg hd, if_neg hd0, ih']
        simp
        omega
    · rw [if_neg hc, if_neg (h c (by simp)), ih']
      simp
      omega

theorem slh_block {again : Lex → Out Lex} {l : Lex} {s r : Bytes} (h : ∀ b ∈ s, b ≠ 0) (h' : ¬ bs!"*/" <:+: s)
    (hl : l.rest = #b'/' :: #b'*' :: s ++ bs!"*/" ++ r) :
    l.slh again = again (l.moveTo r (l.index + (s.length + 4))) := by
  rw [slh, bump_moveTo (c := #b'/') (r := #b'*' :: s ++ #b'*' :: #b'/' :: r) (by simpa using hl)]
  simp only [Out.bind_ok, readByte, rest_moveTo, List.cons_append, List.headD_cons]
  rw [if_neg (by decide), if_pos (by trivial), bump_moveTo (c := #b'*') (r := s ++ #b'*' :: #b'/' :: r) rfl]
  simp only [Out.bind_ok, moveTo_moveTo, index_moveTo, rest_moveTo, blockCommentGo_closed h h']
  congr 2
  omega

/-- What `/` starts. -/
theorem slh_cases {again : Lex → Out Lex} {l : Lex} {r : Bytes} (hl : l.rest = #b'/' :: r) :
    (∃ p s, TriviaPiece p s ∧ l.rest = p ++ s ∧ p ≠ []) ∨ (l.slh again).Sat (Lexed l) False False False := by
  by_cases h1 : next r = #b'/'
  · left
    cases r with
    | nil => simp [next] at h1
    | cons a r =>
      simp [next] at h1
      subst h1
      have h0 : next (r.dropWhile (fun b => b != 0 && b != #b'\n')) = 0 ∨
          next (r.dropWhile (fun b => b != 0 && b != #b'\n')) = #b'\n' := by
        have := next_dropWhile (p := fun b => b != 0 && b != #b'\n') (by decide) r
        simp only [Bool.and_eq_false_iff, bne_eq_false_iff_eq] at this
        exact this
      refine ⟨#b'/' :: #b'/' :: r.takeWhile (fun b => b != 0 && b != #b'\n'), _, .line (fun b hb => ?_) h0, ?_, by simp⟩
      · have := mem_takeWhile b hb
        simpa using this
      · rw [hl]; simp
  by_cases h2 : next r = #b'*'
  · cases r with
    | nil => simp [next] at h2
    | cons a r =>
      simp [next] at h2
      subst h2
      obtain ⟨p, hp1, hp2, hp3⟩ := blockCommentGo_spec (r := r) (i := l.index + 2) (b := _) (s := _) (j := _) rfl
      rcases hp3 with ⟨h3, h4, h5⟩ | ⟨h3, h4, h5, h6⟩
      · left
        exact ⟨_, (blockCommentGo r (l.index + 2)).2.1, .block (s := p) hp1 hp2, by rw [hl]; simp [← h4], by simp⟩
      · right
        rw [slh, bump_moveTo hl]
        simp only [Out.bind_ok, readByte, rest_moveTo, List.headD_cons]
        rw [if_neg (by decide), if_pos (by trivial), bump_moveTo (c := #b'*') (r := r) rfl]
        simp only [Out.bind_ok, moveTo_moveTo, index_moveTo, rest_moveTo]
        generalize hx : blockCommentGo r (l.index + 2) = x at *
        obtain ⟨b, s, j⟩ := x
        simp at h3 h4 h5 h6
        subst h3
        exact ⟨#b'/' :: #b'*' :: p, ⟨rfl, rfl, by simp [hl, h4, setToken, moveTo], by simp [h5, setToken, moveTo]; omega, rfl⟩,
          .openComment hp1 hp2 h6⟩
  right
  cases l with
  | mk src rest index tokenStart accessorStart token asi quasi =>
  simp only at hl
  subst hl
  rcases r with _ | ⟨a, r⟩
  · exact lexed_punct [_] (t := .OperatorDivision) (r := []) rfl rfl rfl rfl rfl rfl rfl (by decide) (by decide) (by decide)
  · simp [next] at h1 h2
    simp only [slh, bump, Out.bind_ok, readByte, List.headD_cons, setToken]
    apply Out.Sat.ite
    · intro h; exact absurd h h1
    intro _
    apply Out.Sat.ite
    · intro h; exact absurd h h2
    intro _
    apply Out.Sat.ite
    · rintro rfl
      exact lexed_punct [_, _] (t := .OperatorDivideAssign) (r := r) rfl rfl rfl rfl rfl rfl rfl (by decide) (by simp [extensions, puncts]) (by simp)
    · intro h3
      exact lexed_punct [_] (t := .OperatorDivision) (r := a :: r) rfl rfl rfl rfl rfl rfl rfl (by decide) (by simp [extensions, puncts, next, h3]) (by simp [next, h1, h2])

theorem slh_congr {again again' : Lex → Out Lex} {l : Lex}
    (h : ∀ l' : Lex, l'.rest.length < l.rest.length → again l' = again' l') : l.slh again = l.slh again' := by
  rw [slh, slh]
  cases hb : l.rest with
  | nil => rw [show l.bump = .oob by simp [bump, hb]]; rfl
  | cons c r =>
    rw [bump_moveTo hb]
    simp only [Out.bind_ok]
    by_cases h1 : (l.moveTo r (l.index + 1)).readByte = #b'/'
    · rw [if_pos h1, if_pos h1]
      obtain ⟨r', hr', hb', -⟩ := bump_of_readByte (l := l.moveTo r (l.index + 1)) (by rw [h1]; decide)
      rw [hb']
      simp only [Out.bind_ok]
      apply h
      rw [rest_skipWhile]
      simp only [rest_moveTo] at hr' ⊢
      have := (List.dropWhile_sublist (fun b => b != 0 && b != #b'\n') (l := r')).length_le
      rw [hb, hr']
      simp
      omega
    · rw [if_neg h1, if_neg h1]
      by_cases h2 : (l.moveTo r (l.index + 1)).readByte = #b'*'
      · rw [if_pos h2, if_pos h2]
        obtain ⟨r', hr', hb', -⟩ := bump_of_readByte (l := l.moveTo r (l.index + 1)) (by rw [h2]; decide)
        rw [hb']
        simp only [Out.bind_ok]
        obtain ⟨p, -, -, hp⟩ := blockCommentGo_spec (r := ((l.moveTo r (l.index + 1)).moveTo r' ((l.moveTo r (l.index + 1)).index + 1)).rest)
          (i := ((l.moveTo r (l.index + 1)).moveTo r' ((l.moveTo r (l.index + 1)).index + 1)).index) (b := _) (s := _) (j := _) rfl
        generalize blockCommentGo ((l.moveTo r (l.index + 1)).moveTo r' ((l.moveTo r (l.index + 1)).index + 1)).rest
          ((l.moveTo r (l.index + 1)).moveTo r' ((l.moveTo r (l.index + 1)).index + 1)).index = x at hp ⊢
        obtain ⟨b, s, j⟩ := x
        cases b with
        | false => rfl
        | true =>
          simp only
          apply h
          simp only [rest_moveTo] at hr' hp ⊢
          rcases hp with ⟨-, hp, -⟩ | ⟨hp, -⟩
          · rw [hb, hr', hp]
            simp
            omega
          · simp at hp
      · rw [if_neg h2, if_neg h2]

theorem runHandler_congr {again again' : Lex → Out Lex} {l : Lex} (c : Handler)
    (h : ∀ l' : Lex, l'.rest.length < l.rest.length → again l' = again' l') :
    runHandler again c l = runHandler again' c l := by
  cases c
  case SLH => exact slh_congr h
  all_goals rfl

theorem scan_succ (n : Nat) (l : Lex) : scan (n + 1) l =
    if handlerOf (next l.rest) = .WS then
      l.bump >>= fun l' => scan n (if next l.rest = #b'\n' then { l' with asi := .ImplicitSemicolon } else l')
    else runHandler (fun l => scan n { l with asi := .NoSemicolon }) (handlerOf (next l.rest))
      { l with tokenStart := l.index } := rfl

theorem scan_fuel {n m : Nat} {l : Lex} (hn : l.rest.length < n) (hm : l.rest.length < m) : scan n l = scan m l := by
  induction n generalizing m l with
  | zero => simp at hn
  | succ n ih =>
    cases m with
    | zero => simp at hm
    | succ m =>
      rw [scan_succ, scan_succ]
      by_cases hw : handlerOf (next l.rest) = .WS
      · rw [if_pos hw, if_pos hw]
        cases hb : l.rest with
        | nil => rw [show l.bump = .oob by simp [bump, hb]]; rfl
        | cons c r =>
          rw [bump_moveTo hb]
          simp only [Out.bind_ok]
          rw [hb] at hn hm
          simp at hn hm
          apply ih
          · split <;> simpa [moveTo] using hn
          · split <;> simpa [moveTo] using hm
      · rw [if_neg hw, if_neg hw]
        apply runHandler_congr
        intro l' hl'
        simp only at hl'
        exact ih (by simp only; omega) (by simp only; omega)

theorem scan_tokenStart (n : Nat) (l : Lex) (k : Nat) : scan n { l with tokenStart := k } = scan n l := by
  induction n generalizing l with
  | zero => rfl
  | succ n ih =>
    rw [scan_succ, scan_succ]
    simp only
    by_cases hw : handlerOf (next l.rest) = .WS
    · rw [if_pos hw, if_pos hw]
      cases hb : l.rest with
      | nil => simp [bump, hb]
      | cons c r =>
        simp only [bump, hb, Out.bind_ok]
        split
        · exact ih { l with rest := r, index := l.index + 1, asi := .ImplicitSemicolon }
        · exact ih { l with rest := r, index := l.index + 1 }
    · rw [if_neg hw, if_neg hw]

theorem scanAll_eq {n : Nat} {l : Lex} (h : l.rest.length < n) : scan n l = scanAll l :=
  scan_fuel h (Nat.lt_succ_self _)

theorem scanAll_tokenStart (l : Lex) (k : Nat) : scanAll { l with tokenStart := k } = scanAll l :=
  scan_tokenStart _ l k

/-- White space is skipped; a line break is remembered. -/
theorem scanAll_space {l : Lex} {b : Byte} {r : Bytes} (hr : l.rest = b :: r) (hb : isSpace b = true) :
    scanAll l = scanAll { l.moveTo r (l.index + 1) with asi := if b = #b'\n' then .ImplicitSemicolon else l.asi } := by
  rw [scanAll, scan_succ]
  have hh : handlerOf (next l.rest) = .WS := by rw [hr]; exact ws_of_space hb
  rw [if_pos hh, bump_moveTo hr]
  simp only [Out.bind_ok, next, hr, List.headD_cons]
  rw [show (if b = #b'\n' then { l.moveTo r (l.index + 1) with asi := .ImplicitSemicolon } else l.moveTo r (l.index + 1))
    = { l.moveTo r (l.index + 1) with asi := if b = #b'\n' then .ImplicitSemicolon else l.asi } by split <;> rfl]
  rw [scanAll_eq (by simp [moveTo])]

theorem handlerOf_slash : handlerOf #b'/' = .SLH := by decide

theorem scanAll_slash {l : Lex} {r : Bytes} (hr : l.rest = #b'/' :: r) :
    scanAll l = slh (fun l' => scan l.rest.length { l' with asi := .NoSemicolon }) { l with tokenStart := l.index } := by
  have hh : handlerOf (next l.rest) = .SLH := by rw [hr]; exact handlerOf_slash
  rw [scanAll, scan_succ, hh, if_neg (by decide)]
  rfl

/-- A comment is skipped. -/
theorem scanAll_comment {l : Lex} {p r : Bytes} (hp : TriviaPiece p r) (hl : l.rest = p ++ r)
    (hs : ∀ b, p = [b] → False) :
    scanAll l = scanAll { l.moveTo r (l.index + p.length) with asi := .NoSemicolon } := by
  cases hp with
  | space h => exact absurd rfl (hs _)
  | @line s _ h hr =>
    rw [scanAll_slash (r := #b'/' :: s ++ r) hl, slh_line (l := { l with tokenStart := l.index }) (s := s) (r := r) h hr hl]
    rw [scanAll_eq (by simp [moveTo, hl]; omega)]
    exact scanAll_tokenStart { l.moveTo r (l.index + (s.length + 2)) with asi := .NoSemicolon } l.index
  | @block s _ h h' =>
    rw [scanAll_slash (r := #b'*' :: s ++ bs!"*/" ++ r) hl, slh_block (l := { l with tokenStart := l.index }) (s := s) (r := r) h h' hl]
    rw [scanAll_eq (by simp [moveTo, hl]; omega)]
    have e : l.index + (s.length + 4) = l.index + (#b'/' :: #b'*' :: s ++ bs!"*/").length := by simp
    rw [← e]
    exact scanAll_tokenStart { l.moveTo r (l.index + (s.length + 4)) with asi := .NoSemicolon } l.index

/-- At the beginning of a text there is white space, a comment or a token. -/
theorem scanAll_cases (l : Lex) :
    (∃ p s, TriviaPiece p s ∧ l.rest = p ++ s ∧ p ≠ []) ∨
    (scanAll l).Sat (Done { l with tokenStart := l.index }) (ReadsBehind l.rest) (Panics l.rest) False := by
  by_cases hw : isSpace (next l.rest) = true
  · left
    obtain ⟨r, hr⟩ := readByte_ne (l := l) (by rw [readByte_eq_next]; intro h; rw [h] at hw; exact absurd hw (by decide))
    exact ⟨[next l.rest], r, .space hw, hr, by simp⟩
  · have hw' : isSpace (next l.rest) = false := by simpa using hw
    by_cases hs : next l.rest = #b'/'
    · obtain ⟨r, hr⟩ := readByte_ne (l := l) (by rw [readByte_eq_next, hs]; decide)
      rw [readByte_eq_next, hs] at hr
      rw [scanAll_slash hr]
      rcases slh_cases (again := fun l' => scan l.rest.length { l' with asi := .NoSemicolon })
        (l := { l with tokenStart := l.index }) (r := r) hr with h | h
      · exact Or.inl h
      · right
        exact (sat_done h (by simp only [hs]; decide)).mono (fun _ _ h => h) False.elim False.elim id
    · right
      have hh : handlerOf (next l.rest) ≠ .WS := fun h => hw (space_of_ws h)
      rw [scanAll, scan_succ, if_neg hh]
      exact runHandler_spec _ { l with tokenStart := l.index } hw' hs

/-- One call of the lexer, `asi` being `l.asi` before. -/
structure Scanned (l l' : Lex) (g p : Bytes) : Prop where
  src : l'.src = l.src
  rest : l.rest = g ++ (p ++ l'.rest)
  trivia : Trivia g (p ++ l'.rest)
  tokenStart : l'.tokenStart = l.index + g.length
  index : l'.index = l.index + g.length + p.length
  lexeme : Lexeme l'.token p l'.rest
  asi : l'.asi ≠ .NoSemicolon → closes l'.token = true ∨ l.asi ≠ .NoSemicolon ∨ #b'\n' ∈ g
  closes : closes l'.token = true → l'.asi ≠ .NoSemicolon
  explicit : l'.token = .Semicolon → l'.asi = .ExplicitSemicolon

theorem scanAll_spec (l : Lex) :
    (scanAll l).Sat (fun l' => ∃ g p, Scanned l l' g p)
      (∃ g r, l.rest = g ++ r ∧ Trivia g r ∧ ReadsBehind r)
      (∃ g r, l.rest = g ++ r ∧ Trivia g r ∧ Panics r) False := by
  generalize hn : l.rest.length = n
  induction n using Nat.strongRecOn generalizing l with
  | ind n ih =>
    subst hn
    rcases scanAll_cases l with ⟨p, s, hp, hl, hne⟩ | h
    · have hlen : s.length < l.rest.length := by
        rw [hl, List.length_append]
        have := List.length_pos_iff.mpr hne
        omega
      obtain ⟨a, ha, hab⟩ : ∃ a, scanAll l = scanAll { l.moveTo s (l.index + p.length) with asi := a } ∧
          (a ≠ .NoSemicolon → l.asi ≠ .NoSemicolon ∨ #b'\n' ∈ p) := by
        by_cases hsp : ∃ b, p = [b]
        · obtain ⟨b, rfl⟩ := hsp
          cases hp with
          | space h =>
            refine ⟨_, scanAll_space hl h, ?_⟩
            split
            · simp [*]
            · exact Or.inl
        · exact ⟨_, scanAll_comment hp hl (fun b hb => hsp ⟨b, hb⟩), fun h => absurd rfl h⟩
      rw [ha]
      refine (ih s.length hlen { l.moveTo s (l.index + p.length) with asi := a } rfl).mono ?_ ?_ ?_ id
      · rintro l' - ⟨g, q, h1, h2, h3, h4, h5, h6, h7, h8, h9⟩
        simp only [moveTo] at h1 h2 h4 h5 h7
        refine ⟨p ++ g, q, h1, by rw [hl, h2]; simp, .cons (by rw [← h2]; exact hp) h3, by simp [h4]; omega, by simp [h5]; omega, h6, ?_, h8, h9⟩
        intro h
        rcases h7 h with h | h | h
        · exact Or.inl h
        · rcases hab h with h | h
          · exact Or.inr (Or.inl h)
          · simp [h]
        · simp [h]
      · rintro ⟨g, r, h1, h2, h3⟩
        simp only [moveTo] at h1
        exact ⟨p ++ g, r, by rw [hl, h1]; simp, .cons (by rw [← h1]; exact hp) h2, h3⟩
      · rintro ⟨g, r, h1, h2, h3⟩
        simp only [moveTo] at h1
        exact ⟨p ++ g, r, by rw [hl, h1]; simp, .cons (by rw [← h1]; exact hp) h2, h3⟩
    · refine h.mono ?_ (fun h => ⟨[], l.rest, rfl, .nil, h⟩) (fun h => ⟨[], l.rest, rfl, .nil, h⟩) id
      rintro l' - ⟨p, ho, hx⟩
      have hasi := ho.asi
      simp only [asiAt] at hasi
      refine ⟨[], p, ho.src, by simpa using ho.rest, .nil, by simpa using ho.tokenStart, by simpa using ho.index, hx, ?_, ?_, ?_⟩
      · intro h
        cases hc : Spec.closes l'.token with
        | true => simp
        | false =>
          have : l'.token ≠ .Semicolon := by intro h; rw [h] at hc; simp [Spec.closes] at hc
          rw [if_neg this, hc] at hasi
          simp at hasi
          rw [hasi] at h
          simp [h]
      · intro h
        rw [hasi, h]
        split <;> simp
      · intro h
        rw [hasi, if_pos h]

theorem scanAll_trivia {g r : Bytes} (hg : Trivia g r) :
    ∀ l : Lex, l.rest = g ++ r → ∃ a, scanAll l = scanAll { l.moveTo r (l.index + g.length) with asi := a } := by
  induction hg with
  | nil => intro l hl; exact ⟨l.asi, by simp at hl; subst hl; rfl⟩
  | @cons p g r hp hg ih =>
    intro l hl
    have hl' : l.rest = p ++ (g ++ r) := by rw [hl]; simp
    obtain ⟨a, ha⟩ : ∃ a, scanAll l = scanAll { l.moveTo (g ++ r) (l.index + p.length) with asi := a } := by
      by_cases hsp : ∃ b, p = [b]
      · obtain ⟨b, rfl⟩ := hsp
        cases hp with
        | space h => exact ⟨_, scanAll_space hl' h⟩
      · exact ⟨_, scanAll_comment hp hl' (fun b hb => hsp ⟨b, hb⟩)⟩
    obtain ⟨a', ha'⟩ := ih { l.moveTo (g ++ r) (l.index + p.length) with asi := a } rfl
    refine ⟨a', ?_⟩
    rw [ha, ha']
    simp [moveTo, Nat.add_assoc]

theorem scanAll_lineTrivia {g r : Bytes} (hg : LineTrivia g r) (hr : isSpace (next r) = false) :
    ∀ l : Lex, l.rest = g ++ r → ∃ a, scanAll l = scanAll { l.moveTo r (l.index + g.length) with asi := a } ∧
      ((l.asi = .ImplicitSemicolon ∨ #b'\n' ∈ g) → a = .ImplicitSemicolon ∨ next r = 0) := by
  induction hg with
  | nil => intro l hl; exact ⟨l.asi, by simp at hl; subst hl; rfl, by simp; exact Or.inl⟩
  | @space b g r h hg ih =>
    intro l hl
    rw [scanAll_space hl h]
    obtain ⟨a, ha, hab⟩ := ih hr { l.moveTo (g ++ r) (l.index + 1) with asi := if b = #b'\n' then .ImplicitSemicolon else l.asi } rfl
    refine ⟨a, ?_, ?_⟩
    · refine Eq.trans ha ?_; simp [moveTo, Nat.add_assoc, Nat.add_comm 1]
    · intro hh
      apply hab
      simp only [List.mem_cons] at hh
      by_cases hb : b = #b'\n'
      · left; simp [hb]
      · rw [if_neg hb]
        rcases hh with hh | hh | hh
        · exact Or.inl hh
        · exact absurd hh.symm hb
        · exact Or.inr hh
  | @line s g r h hn hg ih =>
    intro l hl
    rw [scanAll_comment (.line h hn) (r := g ++ r) (by rw [hl]; simp) (by simp)]
    obtain ⟨a, ha, hab⟩ := ih hr { l.moveTo (g ++ r) (l.index + (#b'/' :: #b'/' :: s).length) with asi := .NoSemicolon } rfl
    refine ⟨a, ?_, fun _ => ?_⟩
    · rw [ha]; simp [moveTo]; congr 2; omega
    · cases g with
      | nil =>
        rcases hn with hn | hn
        · exact Or.inr hn
        · simp at hn; rw [hn] at hr; exact absurd hr (by decide)
      | cons b g =>
        rcases hn with hn | hn
        · simp [next] at hn
          subst hn
          cases hg with
          | space h => exact absurd h (by decide)
        · simp [next] at hn
          subst hn
          exact hab (by simp)

end Lex
end Ratel
