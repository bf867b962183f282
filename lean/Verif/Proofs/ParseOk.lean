import Verif.Proofs.WireLemmas

set_option linter.unusedSimpArgs false

/-! Generated by `tools/gen_parse_lemmas.py`: what each `parse` accepts and returns. -/

namespace Wamp

theorem Abort.parse_ok (v : Value) (m : Abort) : Abort.parse v = .ok m ↔
    ∃ t x1 x2 args kwargs, v = .list ([t, .dict x1, .str x2] ++ payloadTail args kwargs) ∧
      (kwargs.isSome → args.isSome) ∧ t.eqInt Abort.TYPE = true ∧ m = { details := x1, reason := x2, args := args, kwargs := kwargs } := by
  unfold Abort.parse Abort.spec
  constructor
  · simp only [except_bind_ok, except_pure_ok, need_ok, validateMessage_ok, runSpec_cons_ok, runSpec_nil_ok, fieldValidator_ok, validateDetails, validateReason, validateString_ok, validateDict_ok, validateArgs_ok, validateKwargs_ok]
    rintro ⟨f, ⟨msg, rfl, h1, h2, ⟨t, ht, ht'⟩, ⟨_, ⟨_, x1, hx1, rfl, rfl⟩, ⟨_, ⟨_, x2, hx2, rfl, rfl⟩, ⟨_, ha, ⟨_, hk, rfl⟩⟩⟩⟩⟩, hm⟩
    rcases msg with _ | ⟨y0, _ | ⟨y1, _ | ⟨y2, _ | ⟨y3, _ | ⟨y4, ⟨z, zs⟩⟩⟩⟩⟩⟩
    all_goals simp at h1 h2 ht hx1 hx2
    all_goals (try omega)
    all_goals subst ht hx1 hx2
    · simp at ha hk; subst ha hk; simp at hm; subst hm
      exact ⟨y0, x1, x2, none, none, rfl, by simp, ht', rfl⟩
    · simp at ha hk; obtain ⟨la, rfl, rfl⟩ := ha; subst hk; simp at hm; subst hm
      exact ⟨y0, x1, x2, some la, none, rfl, by simp, ht', rfl⟩
    · simp at ha hk; obtain ⟨la, rfl, rfl⟩ := ha; obtain ⟨lk, rfl, rfl⟩ := hk; simp at hm; subst hm
      exact ⟨y0, x1, x2, some la, some lk, rfl, by simp, ht', rfl⟩
  · rintro ⟨t, x1, x2, args, kwargs, rfl, hp, ht, rfl⟩
    rcases args with _ | args <;> rcases kwargs with _ | kwargs <;>
      simp_all [payloadTail, validateMessage, sanityCheck, index, Value.asList?, runSpec, fieldValidator, need, validateDict, validateString, validateList, validateInt, Value.asDict?, Value.asStr?, bind, Except.bind, pure, Except.pure, validateArgs, validateKwargs, validateDetails, validateReason]

theorem Abort.parse_total (v : Value) (f : Fields) (h : validateMessage v Abort.TYPE Abort.spec = .ok f) :
    ∃ m, Abort.parse v = .ok m := by
  have h' := h
  unfold Abort.spec at h'
  simp only [validateMessage_ok, runSpec_cons_ok, runSpec_nil_ok, fieldValidator_ok, validateDetails, validateReason, validateString_ok, validateDict_ok, validateArgs_ok, validateKwargs_ok] at h'
  obtain ⟨msg, rfl, h1, h2, ⟨t, ht, ht'⟩, ⟨_, ⟨_, x1, hx1, rfl, rfl⟩, ⟨_, ⟨_, x2, hx2, rfl, rfl⟩, ⟨_, ha, ⟨_, hk, rfl⟩⟩⟩⟩⟩ := h'
  rcases ha with ⟨-, rfl⟩ | ⟨la, -, rfl⟩ <;> rcases hk with ⟨-, rfl⟩ | ⟨lk, -, rfl⟩ <;>
    simp [Abort.parse, h, need, bind, Except.bind, pure, Except.pure]

theorem Challenge.parse_ok (v : Value) (m : Challenge) : Challenge.parse v = .ok m ↔
    ∃ t x1 x2, v = .list [t, .str x1, .dict x2] ∧
      t.eqInt Challenge.TYPE = true ∧ m = { authmethod := x1, extra := x2 } := by
  unfold Challenge.parse Challenge.spec
  constructor
  · simp only [except_bind_ok, except_pure_ok, need_ok, validateMessage_ok, runSpec_cons_ok, runSpec_nil_ok, fieldValidator_ok, validateAuthmethod, validateExtra, validateString_ok, validateDict_ok]
    rintro ⟨f, ⟨msg, rfl, h1, h2, ⟨t, ht, ht'⟩, ⟨_, ⟨_, x1, hx1, rfl, rfl⟩, ⟨_, ⟨_, x2, hx2, rfl, rfl⟩, rfl⟩⟩⟩, hm⟩
    rcases msg with _ | ⟨y0, _ | ⟨y1, _ | ⟨y2, ⟨z, zs⟩⟩⟩⟩
    all_goals simp at h1 h2 ht hx1 hx2
    all_goals (try omega)
    all_goals subst ht hx1 hx2
    simp at hm; subst hm
    exact ⟨y0, x1, x2, rfl, ht', rfl⟩
  · rintro ⟨t, x1, x2, rfl, ht, rfl⟩
    simp_all [validateMessage, sanityCheck, index, Value.asList?, runSpec, fieldValidator, need, validateDict, validateString, validateList, validateInt, Value.asDict?, Value.asStr?, bind, Except.bind, pure, Except.pure, validateArgs, validateKwargs, validateAuthmethod, validateExtra]

theorem Challenge.parse_total (v : Value) (f : Fields) (h : validateMessage v Challenge.TYPE Challenge.spec = .ok f) :
    ∃ m, Challenge.parse v = .ok m := by
  have h' := h
  unfold Challenge.spec at h'
  simp only [validateMessage_ok, runSpec_cons_ok, runSpec_nil_ok, fieldValidator_ok, validateAuthmethod, validateExtra, validateString_ok, validateDict_ok] at h'
  obtain ⟨msg, rfl, h1, h2, ⟨t, ht, ht'⟩, ⟨_, ⟨_, x1, hx1, rfl, rfl⟩, ⟨_, ⟨_, x2, hx2, rfl, rfl⟩, rfl⟩⟩⟩ := h'
  simp [Challenge.parse, h, need, bind, Except.bind, pure, Except.pure]

theorem Authenticate.parse_ok (v : Value) (m : Authenticate) : Authenticate.parse v = .ok m ↔
    ∃ t x1 x2, v = .list [t, .str x1, .dict x2] ∧
      t.eqInt Authenticate.TYPE = true ∧ m = { signature := x1, extra := x2 } := by
  unfold Authenticate.parse Authenticate.spec
  constructor
  · simp only [except_bind_ok, except_pure_ok, need_ok, validateMessage_ok, runSpec_cons_ok, runSpec_nil_ok, fieldValidator_ok, validateExtra, validateSignature, validateString_ok, validateDict_ok]
    rintro ⟨f, ⟨msg, rfl, h1, h2, ⟨t, ht, ht'⟩, ⟨_, ⟨_, x1, hx1, rfl, rfl⟩, ⟨_, ⟨_, x2, hx2, rfl, rfl⟩, rfl⟩⟩⟩, hm⟩
    rcases msg with _ | ⟨y0, _ | ⟨y1, _ | ⟨y2, ⟨z, zs⟩⟩⟩⟩
    all_goals simp at h1 h2 ht hx1 hx2
    all_goals (try omega)
    all_goals subst ht hx1 hx2
    simp at hm; subst hm
    exact ⟨y0, x1, x2, rfl, ht', rfl⟩
  · rintro ⟨t, x1, x2, rfl, ht, rfl⟩
    simp_all [validateMessage, sanityCheck, index, Value.asList?, runSpec, fieldValidator, need, validateDict, validateString, validateList, validateInt, Value.asDict?, Value.asStr?, bind, Except.bind, pure, Except.pure, validateArgs, validateKwargs, validateExtra, validateSignature]

theorem Authenticate.parse_total (v : Value) (f : Fields) (h : validateMessage v Authenticate.TYPE Authenticate.spec = .ok f) :
    ∃ m, Authenticate.parse v = .ok m := by
  have h' := h
  unfold Authenticate.spec at h'
  simp only [validateMessage_ok, runSpec_cons_ok, runSpec_nil_ok, fieldValidator_ok, validateExtra, validateSignature, validateString_ok, validateDict_ok] at h'
  obtain ⟨msg, rfl, h1, h2, ⟨t, ht, ht'⟩, ⟨_, ⟨_, x1, hx1, rfl, rfl⟩, ⟨_, ⟨_, x2, hx2, rfl, rfl⟩, rfl⟩⟩⟩ := h'
  simp [Authenticate.parse, h, need, bind, Except.bind, pure, Except.pure]

theorem Goodbye.parse_ok (v : Value) (m : Goodbye) : Goodbye.parse v = .ok m ↔
    ∃ t x1 x2, v = .list [t, .dict x1, .str x2] ∧
      t.eqInt Goodbye.TYPE = true ∧ m = { details := x1, reason := x2 } := by
  unfold Goodbye.parse Goodbye.spec
  constructor
  · simp only [except_bind_ok, except_pure_ok, need_ok, validateMessage_ok, runSpec_cons_ok, runSpec_nil_ok, fieldValidator_ok, validateDetails, validateReason, validateString_ok, validateDict_ok]
    rintro ⟨f, ⟨msg, rfl, h1, h2, ⟨t, ht, ht'⟩, ⟨_, ⟨_, x1, hx1, rfl, rfl⟩, ⟨_, ⟨_, x2, hx2, rfl, rfl⟩, rfl⟩⟩⟩, hm⟩
    rcases msg with _ | ⟨y0, _ | ⟨y1, _ | ⟨y2, ⟨z, zs⟩⟩⟩⟩
    all_goals simp at h1 h2 ht hx1 hx2
    all_goals (try omega)
    all_goals subst ht hx1 hx2
    simp at hm; subst hm
    exact ⟨y0, x1, x2, rfl, ht', rfl⟩
  · rintro ⟨t, x1, x2, rfl, ht, rfl⟩
    simp_all [validateMessage, sanityCheck, index, Value.asList?, runSpec, fieldValidator, need, validateDict, validateString, validateList, validateInt, Value.asDict?, Value.asStr?, bind, Except.bind, pure, Except.pure, validateArgs, validateKwargs, validateDetails, validateReason]

theorem Goodbye.parse_total (v : Value) (f : Fields) (h : validateMessage v Goodbye.TYPE Goodbye.spec = .ok f) :
    ∃ m, Goodbye.parse v = .ok m := by
  have h' := h
  unfold Goodbye.spec at h'
  simp only [validateMessage_ok, runSpec_cons_ok, runSpec_nil_ok, fieldValidator_ok, validateDetails, validateReason, validateString_ok, validateDict_ok] at h'
  obtain ⟨msg, rfl, h1, h2, ⟨t, ht, ht'⟩, ⟨_, ⟨_, x1, hx1, rfl, rfl⟩, ⟨_, ⟨_, x2, hx2, rfl, rfl⟩, rfl⟩⟩⟩ := h'
  simp [Goodbye.parse, h, need, bind, Except.bind, pure, Except.pure]

theorem Call.parse_ok (v : Value) (m : Call) : Call.parse v = .ok m ↔
    ∃ t x1 x2 x3 args kwargs, v = .list ([t, PyInt.toValue x1, .dict x2, .str x3] ++ payloadTail args kwargs) ∧
      (kwargs.isSome → args.isSome) ∧ t.eqInt Call.TYPE = true ∧ ValidId x1 ∧ m = { requestId := x1, options_ := x2, procedure := x3, args := args, kwargs := kwargs } := by
  unfold Call.parse Call.spec
  constructor
  · simp only [except_bind_ok, except_pure_ok, need_ok, validateMessage_ok, runSpec_cons_ok, runSpec_nil_ok, fieldValidator_ok, validateOptions, validateProcedure, validateRequestId, validateId_ok, validateString_ok, validateDict_ok, validateArgs_ok, validateKwargs_ok]
    rintro ⟨f, ⟨msg, rfl, h1, h2, ⟨t, ht, ht'⟩, ⟨_, ⟨_, x1, hx1, ⟨rfl, hvx1⟩, rfl⟩, ⟨_, ⟨_, x2, hx2, rfl, rfl⟩, ⟨_, ⟨_, x3, hx3, rfl, rfl⟩, ⟨_, ha, ⟨_, hk, rfl⟩⟩⟩⟩⟩⟩, hm⟩
    rcases msg with _ | ⟨y0, _ | ⟨y1, _ | ⟨y2, _ | ⟨y3, _ | ⟨y4, _ | ⟨y5, ⟨z, zs⟩⟩⟩⟩⟩⟩⟩
    all_goals simp at h1 h2 ht hx1 hx2 hx3
    all_goals (try omega)
    all_goals subst ht hx1 hx2 hx3
    · simp at ha hk; subst ha hk; simp at hm; subst hm
      exact ⟨y0, x1, x2, x3, none, none, rfl, by simp, ht', hvx1, rfl⟩
    · simp at ha hk; obtain ⟨la, rfl, rfl⟩ := ha; subst hk; simp at hm; subst hm
      exact ⟨y0, x1, x2, x3, some la, none, rfl, by simp, ht', hvx1, rfl⟩
    · simp at ha hk; obtain ⟨la, rfl, rfl⟩ := ha; obtain ⟨lk, rfl, rfl⟩ := hk; simp at hm; subst hm
      exact ⟨y0, x1, x2, x3, some la, some lk, rfl, by simp, ht', hvx1, rfl⟩
  · rintro ⟨t, x1, x2, x3, args, kwargs, rfl, hp, ht, hvx1, rfl⟩
    rcases args with _ | args <;> rcases kwargs with _ | kwargs <;>
      simp_all [payloadTail, validateMessage, sanityCheck, index, Value.asList?, runSpec, fieldValidator, need, validateDict, validateString, validateList, validateInt, Value.asDict?, Value.asStr?, bind, Except.bind, pure, Except.pure, validateArgs, validateKwargs, validateOptions, validateProcedure, validateRequestId, validateId_ok.2 ⟨rfl, hvx1⟩]

theorem Call.parse_total (v : Value) (f : Fields) (h : validateMessage v Call.TYPE Call.spec = .ok f) :
    ∃ m, Call.parse v = .ok m := by
  have h' := h
  unfold Call.spec at h'
  simp only [validateMessage_ok, runSpec_cons_ok, runSpec_nil_ok, fieldValidator_ok, validateOptions, validateProcedure, validateRequestId, validateId_ok, validateString_ok, validateDict_ok, validateArgs_ok, validateKwargs_ok] at h'
  obtain ⟨msg, rfl, h1, h2, ⟨t, ht, ht'⟩, ⟨_, ⟨_, x1, hx1, ⟨rfl, hvx1⟩, rfl⟩, ⟨_, ⟨_, x2, hx2, rfl, rfl⟩, ⟨_, ⟨_, x3, hx3, rfl, rfl⟩, ⟨_, ha, ⟨_, hk, rfl⟩⟩⟩⟩⟩⟩ := h'
  rcases ha with ⟨-, rfl⟩ | ⟨la, -, rfl⟩ <;> rcases hk with ⟨-, rfl⟩ | ⟨lk, -, rfl⟩ <;>
    simp [Call.parse, h, need, bind, Except.bind, pure, Except.pure]

theorem Invocation.parse_ok (v : Value) (m : Invocation) : Invocation.parse v = .ok m ↔
    ∃ t x1 x2 x3 args kwargs, v = .list ([t, PyInt.toValue x1, PyInt.toValue x2, .dict x3] ++ payloadTail args kwargs) ∧
      (kwargs.isSome → args.isSome) ∧ t.eqInt Invocation.TYPE = true ∧ ValidId x1 ∧ ValidId x2 ∧ m = { requestId := x1, registrationId := x2, details_ := x3, args := args, kwargs := kwargs } := by
  unfold Invocation.parse Invocation.spec
  constructor
  · simp only [except_bind_ok, except_pure_ok, need_ok, validateMessage_ok, runSpec_cons_ok, runSpec_nil_ok, fieldValidator_ok, validateDetails, validateRegistrationId, validateRequestId, validateId_ok, validateDict_ok, validateArgs_ok, validateKwargs_ok]
    rintro ⟨f, ⟨msg, rfl, h1, h2, ⟨t, ht, ht'⟩, ⟨_, ⟨_, x1, hx1, ⟨rfl, hvx1⟩, rfl⟩, ⟨_, ⟨_, x2, hx2, ⟨rfl, hvx2⟩, rfl⟩, ⟨_, ⟨_, x3, hx3, rfl, rfl⟩, ⟨_, ha, ⟨_, hk, rfl⟩⟩⟩⟩⟩⟩, hm⟩
    rcases msg with _ | ⟨y0, _ | ⟨y1, _ | ⟨y2, _ | ⟨y3, _ | ⟨y4, _ | ⟨y5, ⟨z, zs⟩⟩⟩⟩⟩⟩⟩
    all_goals simp at h1 h2 ht hx1 hx2 hx3
    all_goals (try omega)
    all_goals subst ht hx1 hx2 hx3
    · simp at ha hk; subst ha hk; simp at hm; subst hm
      exact ⟨y0, x1, x2, x3, none, none, rfl, by simp, ht', hvx1, hvx2, rfl⟩
    · simp at ha hk; obtain ⟨la, rfl, rfl⟩ := ha; subst hk; simp at hm; subst hm
      exact ⟨y0, x1, x2, x3, some la, none, rfl, by simp, ht', hvx1, hvx2, rfl⟩
    · simp at ha hk; obtain ⟨la, rfl, rfl⟩ := ha; obtain ⟨lk, rfl, rfl⟩ := hk; simp at hm; subst hm
      exact ⟨y0, x1, x2, x3, some la, some lk, rfl, by simp, ht', hvx1, hvx2, rfl⟩
  · rintro ⟨t, x1, x2, x3, args, kwargs, rfl, hp, ht, hvx1, hvx2, rfl⟩
    rcases args with _ | args <;> rcases kwargs with _ | kwargs <;>
      simp_all [payloadTail, validateMessage, sanityCheck, index, Value.asList?, runSpec, fieldValidator, need, validateDict, validateString, validateList, validateInt, Value.asDict?, Value.asStr?, bind, Except.bind, pure, Except.pure, validateArgs, validateKwargs, validateDetails, validateRegistrationId, validateRequestId, validateId_ok.2 ⟨rfl, hvx1⟩, validateId_ok.2 ⟨rfl, hvx2⟩]

theorem Invocation.parse_total (v : Value) (f : Fields) (h : validateMessage v Invocation.TYPE Invocation.spec = .ok f) :
    ∃ m, Invocation.parse v = .ok m := by
  have h' := h
  unfold Invocation.spec at h'
  simp only [validateMessage_ok, runSpec_cons_ok, runSpec_nil_ok, fieldValidator_ok, validateDetails, validateRegistrationId, validateRequestId, validateId_ok, validateDict_ok, validateArgs_ok, validateKwargs_ok] at h'
  obtain ⟨msg, rfl, h1, h2, ⟨t, ht, ht'⟩, ⟨_, ⟨_, x1, hx1, ⟨rfl, hvx1⟩, rfl⟩, ⟨_, ⟨_, x2, hx2, ⟨rfl, hvx2⟩, rfl⟩, ⟨_, ⟨_, x3, hx3, rfl, rfl⟩, ⟨_, ha, ⟨_, hk, rfl⟩⟩⟩⟩⟩⟩ := h'
  rcases ha with ⟨-, rfl⟩ | ⟨la, -, rfl⟩ <;> rcases hk with ⟨-, rfl⟩ | ⟨lk, -, rfl⟩ <;>
    simp [Invocation.parse, h, need, bind, Except.bind, pure, Except.pure]

theorem Yield.parse_ok (v : Value) (m : Yield) : Yield.parse v = .ok m ↔
    ∃ t x1 x2 args kwargs, v = .list ([t, PyInt.toValue x1, .dict x2] ++ payloadTail args kwargs) ∧
      (kwargs.isSome → args.isSome) ∧ t.eqInt Yield.TYPE = true ∧ ValidId x1 ∧ m = { requestId := x1, options_ := x2, args := args, kwargs := kwargs } := by
  unfold Yield.parse Yield.spec
  constructor
  · simp only [except_bind_ok, except_pure_ok, need_ok, validateMessage_ok, runSpec_cons_ok, runSpec_nil_ok, fieldValidator_ok, validateOptions, validateRequestId, validateId_ok, validateDict_ok, validateArgs_ok, validateKwargs_ok]
    rintro ⟨f, ⟨msg, rfl, h1, h2, ⟨t, ht, ht'⟩, ⟨_, ⟨_, x1, hx1, ⟨rfl, hvx1⟩, rfl⟩, ⟨_, ⟨_, x2, hx2, rfl, rfl⟩, ⟨_, ha, ⟨_, hk, rfl⟩⟩⟩⟩⟩, hm⟩
    rcases msg with _ | ⟨y0, _ | ⟨y1, _ | ⟨y2, _ | ⟨y3, _ | ⟨y4, ⟨z, zs⟩⟩⟩⟩⟩⟩
    all_goals simp at h1 h2 ht hx1 hx2
    all_goals (try omega)
    all_goals subst ht hx1 hx2
    · simp at ha hk; subst ha hk; simp at hm; subst hm
      exact ⟨y0, x1, x2, none, none, rfl, by simp, ht', hvx1, rfl⟩
    · simp at ha hk; obtain ⟨la, rfl, rfl⟩ := ha; subst hk; simp at hm; subst hm
      exact ⟨y0, x1, x2, some la, none, rfl, by simp, ht', hvx1, rfl⟩
    · simp at ha hk; obtain ⟨la, rfl, rfl⟩ := ha; obtain ⟨lk, rfl, rfl⟩ := hk; simp at hm; subst hm
      exact ⟨y0, x1, x2, some la, some lk, rfl, by simp, ht', hvx1, rfl⟩
  · rintro ⟨t, x1, x2, args, kwargs, rfl, hp, ht, hvx1, rfl⟩
    rcases args with _ | args <;> rcases kwargs with _ | kwargs <;>
      simp_all [payloadTail, validateMessage, sanityCheck, index, Value.asList?, runSpec, fieldValidator, need, validateDict, validateString, validateList, validateInt, Value.asDict?, Value.asStr?, bind, Except.bind, pure, Except.pure, validateArgs, validateKwargs, validateOptions, validateRequestId, validateId_ok.2 ⟨rfl, hvx1⟩]

theorem Yield.parse_total (v : Value) (f : Fields) (h : validateMessage v Yield.TYPE Yield.spec = .ok f) :
    ∃ m, Yield.parse v = .ok m := by
  have h' := h
  unfold Yield.spec at h'
  simp only [validateMessage_ok, runSpec_cons_ok, runSpec_nil_ok, fieldValidator_ok, validateOptions, validateRequestId, validateId_ok, validateDict_ok, validateArgs_ok, validateKwargs_ok] at h'
  obtain ⟨msg, rfl, h1, h2, ⟨t, ht, ht'⟩, ⟨_, ⟨_, x1, hx1, ⟨rfl, hvx1⟩, rfl⟩, ⟨_, ⟨_, x2, hx2, rfl, rfl⟩, ⟨_, ha, ⟨_, hk, rfl⟩⟩⟩⟩⟩ := h'
  rcases ha with ⟨-, rfl⟩ | ⟨la, -, rfl⟩ <;> rcases hk with ⟨-, rfl⟩ | ⟨lk, -, rfl⟩ <;>
    simp [Yield.parse, h, need, bind, Except.bind, pure, Except.pure]

theorem Result.parse_ok (v : Value) (m : Result) : Result.parse v = .ok m ↔
    ∃ t x1 x2 args kwargs, v = .list ([t, PyInt.toValue x1, .dict x2] ++ payloadTail args kwargs) ∧
      (kwargs.isSome → args.isSome) ∧ t.eqInt Result.TYPE = true ∧ ValidId x1 ∧ m = { requestId := x1, details_ := x2, args := args, kwargs := kwargs } := by
  unfold Result.parse Result.spec
  constructor
  · simp only [except_bind_ok, except_pure_ok, need_ok, validateMessage_ok, runSpec_cons_ok, runSpec_nil_ok, fieldValidator_ok, validateDetails, validateRequestId, validateId_ok, validateDict_ok, validateArgs_ok, validateKwargs_ok]
    rintro ⟨f, ⟨msg, rfl, h1, h2, ⟨t, ht, ht'⟩, ⟨_, ⟨_, x1, hx1, ⟨rfl, hvx1⟩, rfl⟩, ⟨_, ⟨_, x2, hx2, rfl, rfl⟩, ⟨_, ha, ⟨_, hk, rfl⟩⟩⟩⟩⟩, hm⟩
    rcases msg with _ | ⟨y0, _ | ⟨y1, _ | ⟨y2, _ | ⟨y3, _ | ⟨y4, ⟨z, zs⟩⟩⟩⟩⟩⟩
    all_goals simp at h1 h2 ht hx1 hx2
    all_goals (try omega)
    all_goals subst ht hx1 hx2
    · simp at ha hk; subst ha hk; simp at hm; subst hm
      exact ⟨y0, x1, x2, none, none, rfl, by simp, ht', hvx1, rfl⟩
    · simp at ha hk; obtain ⟨la, rfl, rfl⟩ := ha; subst hk; simp at hm; subst hm
      exact ⟨y0, x1, x2, some la, none, rfl, by simp, ht', hvx1, rfl⟩
    · simp at ha hk; obtain ⟨la, rfl, rfl⟩ := ha; obtain ⟨lk, rfl, rfl⟩ := hk; simp at hm; subst hm
      exact ⟨y0, x1, x2, some la, some lk, rfl, by simp, ht', hvx1, rfl⟩
  · rintro ⟨t, x1, x2, args, kwargs, rfl, hp, ht, hvx1, rfl⟩
    rcases args with _ | args <;> rcases kwargs with _ | kwargs <;>
      simp_all [payloadTail, validateMessage, sanityCheck, index, Value.asList?, runSpec, fieldValidator, need, validateDict, validateString, validateList, validateInt, Value.asDict?, Value.asStr?, bind, Except.bind, pure, Except.pure, validateArgs, validateKwargs, validateDetails, validateRequestId, validateId_ok.2 ⟨rfl, hvx1⟩]

theorem Result.parse_total (v : Value) (f : Fields) (h : validateMessage v Result.TYPE Result.spec = .ok f) :
    ∃ m, Result.parse v = .ok m := by
  have h' := h
  unfold Result.spec at h'
  simp only [validateMessage_ok, runSpec_cons_ok, runSpec_nil_ok, fieldValidator_ok, validateDetails, validateRequestId, validateId_ok, validateDict_ok, validateArgs_ok, validateKwargs_ok] at h'
  obtain ⟨msg, rfl, h1, h2, ⟨t, ht, ht'⟩, ⟨_, ⟨_, x1, hx1, ⟨rfl, hvx1⟩, rfl⟩, ⟨_, ⟨_, x2, hx2, rfl, rfl⟩, ⟨_, ha, ⟨_, hk, rfl⟩⟩⟩⟩⟩ := h'
  rcases ha with ⟨-, rfl⟩ | ⟨la, -, rfl⟩ <;> rcases hk with ⟨-, rfl⟩ | ⟨lk, -, rfl⟩ <;>
    simp [Result.parse, h, need, bind, Except.bind, pure, Except.pure]

theorem Register.parse_ok (v : Value) (m : Register) : Register.parse v = .ok m ↔
    ∃ t x1 x2 x3, v = .list [t, PyInt.toValue x1, .dict x2, .str x3] ∧
      t.eqInt Register.TYPE = true ∧ ValidId x1 ∧ m = { requestId := x1, options := x2, procedure := x3 } := by
  unfold Register.parse Register.spec
  constructor
  · simp only [except_bind_ok, except_pure_ok, need_ok, validateMessage_ok, runSpec_cons_ok, runSpec_nil_ok, fieldValidator_ok, validateOptions, validateProcedure, validateRequestId, validateId_ok, validateString_ok, validateDict_ok]
    rintro ⟨f, ⟨msg, rfl, h1, h2, ⟨t, ht, ht'⟩, ⟨_, ⟨_, x1, hx1, ⟨rfl, hvx1⟩, rfl⟩, ⟨_, ⟨_, x2, hx2, rfl, rfl⟩, ⟨_, ⟨_, x3, hx3, rfl, rfl⟩, rfl⟩⟩⟩⟩, hm⟩
    rcases msg with _ | ⟨y0, _ | ⟨y1, _ | ⟨y2, _ | ⟨y3, ⟨z, zs⟩⟩⟩⟩⟩
    all_goals simp at h1 h2 ht hx1 hx2 hx3
    all_goals (try omega)
    all_goals subst ht hx1 hx2 hx3
    simp at hm; subst hm
    exact ⟨y0, x1, x2, x3, rfl, ht', hvx1, rfl⟩
  · rintro ⟨t, x1, x2, x3, rfl, ht, hvx1, rfl⟩
    simp_all [validateMessage, sanityCheck, index, Value.asList?, runSpec, fieldValidator, need, validateDict, validateString, validateList, validateInt, Value.asDict?, Value.asStr?, bind, Except.bind, pure, Except.pure, validateArgs, validateKwargs, validateOptions, validateProcedure, validateRequestId, validateId_ok.2 ⟨rfl, hvx1⟩]

theorem Register.parse_total (v : Value) (f : Fields) (h : validateMessage v Register.TYPE Register.spec = .ok f) :
    ∃ m, Register.parse v = .ok m := by
  have h' := h
  unfold Register.spec at h'
  simp only [validateMessage_ok, runSpec_cons_ok, runSpec_nil_ok, fieldValidator_ok, validateOptions, validateProcedure, validateRequestId, validateId_ok, validateString_ok, validateDict_ok] at h'
  obtain ⟨msg, rfl, h1, h2, ⟨t, ht, ht'⟩, ⟨_, ⟨_, x1, hx1, ⟨rfl, hvx1⟩, rfl⟩, ⟨_, ⟨_, x2, hx2, rfl, rfl⟩, ⟨_, ⟨_, x3, hx3, rfl, rfl⟩, rfl⟩⟩⟩⟩ := h'
  simp [Register.parse, h, need, bind, Except.bind, pure, Except.pure]

theorem Registered.parse_ok (v : Value) (m : Registered) : Registered.parse v = .ok m ↔
    ∃ t x1 x2, v = .list [t, PyInt.toValue x1, PyInt.toValue x2] ∧
      t.eqInt Registered.TYPE = true ∧ ValidId x1 ∧ ValidId x2 ∧ m = { requestId := x1, registrationId := x2 } := by
  unfold Registered.parse Registered.spec
  constructor
  · simp only [except_bind_ok, except_pure_ok, need_ok, validateMessage_ok, runSpec_cons_ok, runSpec_nil_ok, fieldValidator_ok, validateRegistrationId, validateRequestId, validateId_ok]
    rintro ⟨f, ⟨msg, rfl, h1, h2, ⟨t, ht, ht'⟩, ⟨_, ⟨_, x1, hx1, ⟨rfl, hvx1⟩, rfl⟩, ⟨_, ⟨_, x2, hx2, ⟨rfl, hvx2⟩, rfl⟩, rfl⟩⟩⟩, hm⟩
    rcases msg with _ | ⟨y0, _ | ⟨y1, _ | ⟨y2, ⟨z, zs⟩⟩⟩⟩
    all_goals simp at h1 h2 ht hx1 hx2
    all_goals (try omega)
    all_goals subst ht hx1 hx2
    simp at hm; subst hm
    exact ⟨y0, x1, x2, rfl, ht', hvx1, hvx2, rfl⟩
  · rintro ⟨t, x1, x2, rfl, ht, hvx1, hvx2, rfl⟩
    simp_all [validateMessage, sanityCheck, index, Value.asList?, runSpec, fieldValidator, need, validateDict, validateString, validateList, validateInt, Value.asDict?, Value.asStr?, bind, Except.bind, pure, Except.pure, validateArgs, validateKwargs, validateRegistrationId, validateRequestId, validateId_ok.2 ⟨rfl, hvx1⟩, validateId_ok.2 ⟨rfl, hvx2⟩]

theorem Registered.parse_total (v : Value) (f : Fields) (h : validateMessage v Registered.TYPE Registered.spec = .ok f) :
    ∃ m, Registered.parse v = .ok m := by
  have h' := h
  unfold Registered.spec at h'
  simp only [validateMessage_ok, runSpec_cons_ok, runSpec_nil_ok, fieldValidator_ok, validateRegistrationId, validateRequestId, validateId_ok] at h'
  obtain ⟨msg, rfl, h1, h2, ⟨t, ht, ht'⟩, ⟨_, ⟨_, x1, hx1, ⟨rfl, hvx1⟩, rfl⟩, ⟨_, ⟨_, x2, hx2, ⟨rfl, hvx2⟩, rfl⟩, rfl⟩⟩⟩ := h'
  simp [Registered.parse, h, need, bind, Except.bind, pure, Except.pure]

theorem Unregister.parse_ok (v : Value) (m : Unregister) : Unregister.parse v = .ok m ↔
    ∃ t x1 x2, v = .list [t, PyInt.toValue x1, PyInt.toValue x2] ∧
      t.eqInt Unregister.TYPE = true ∧ ValidId x1 ∧ ValidId x2 ∧ m = { requestId := x1, registrationId := x2 } := by
  unfold Unregister.parse Unregister.spec
  constructor
  · simp only [except_bind_ok, except_pure_ok, need_ok, validateMessage_ok, runSpec_cons_ok, runSpec_nil_ok, fieldValidator_ok, validateRegistrationId, validateRequestId, validateId_ok]
    rintro ⟨f, ⟨msg, rfl, h1, h2, ⟨t, ht, ht'⟩, ⟨_, ⟨_, x1, hx1, ⟨rfl, hvx1⟩, rfl⟩, ⟨_, ⟨_, x2, hx2, ⟨rfl, hvx2⟩, rfl⟩, rfl⟩⟩⟩, hm⟩
    rcases msg with _ | ⟨y0, _ | ⟨y1, _ | ⟨y2, ⟨z, zs⟩⟩⟩⟩
    all_goals simp at h1 h2 ht hx1 hx2
    all_goals (try omega)
    all_goals subst ht hx1 hx2
    simp at hm; subst hm
    exact ⟨y0, x1, x2, rfl, ht', hvx1, hvx2, rfl⟩
  · rintro ⟨t, x1, x2, rfl, ht, hvx1, hvx2, rfl⟩
    simp_all [validateMessage, sanityCheck, index, Value.asList?, runSpec, fieldValidator, need, validateDict, validateString, validateList, validateInt, Value.asDict?, Value.asStr?, bind, Except.bind, pure, Except.pure, validateArgs, validateKwargs, validateRegistrationId, validateRequestId, validateId_ok.2 ⟨rfl, hvx1⟩, validateId_ok.2 ⟨rfl, hvx2⟩]

theorem Unregister.parse_total (v : Value) (f : Fields) (h : validateMessage v Unregister.TYPE Unregister.spec = .ok f) :
    ∃ m, Unregister.parse v = .ok m := by
  have h' := h
  unfold Unregister.spec at h'
  simp only [validateMessage_ok, runSpec_cons_ok, runSpec_nil_ok, fieldValidator_ok, validateRegistrationId, validateRequestId, validateId_ok] at h'
  obtain ⟨msg, rfl, h1, h2, ⟨t, ht, ht'⟩, ⟨_, ⟨_, x1, hx1, ⟨rfl, hvx1⟩, rfl⟩, ⟨_, ⟨_, x2, hx2, ⟨rfl, hvx2⟩, rfl⟩, rfl⟩⟩⟩ := h'
  simp [Unregister.parse, h, need, bind, Except.bind, pure, Except.pure]

theorem Unregistered.parse_ok (v : Value) (m : Unregistered) : Unregistered.parse v = .ok m ↔
    ∃ t x1, v = .list [t, PyInt.toValue x1] ∧
      t.eqInt Unregistered.TYPE = true ∧ ValidId x1 ∧ m = { requestId := x1 } := by
  unfold Unregistered.parse Unregistered.spec
  constructor
  · simp only [except_bind_ok, except_pure_ok, need_ok, validateMessage_ok, runSpec_cons_ok, runSpec_nil_ok, fieldValidator_ok, validateRequestId, validateId_ok]
    rintro ⟨f, ⟨msg, rfl, h1, h2, ⟨t, ht, ht'⟩, ⟨_, ⟨_, x1, hx1, ⟨rfl, hvx1⟩, rfl⟩, rfl⟩⟩, hm⟩
    rcases msg with _ | ⟨y0, _ | ⟨y1, ⟨z, zs⟩⟩⟩
    all_goals simp at h1 h2 ht hx1
    all_goals (try omega)
    all_goals subst ht hx1
    simp at hm; subst hm
    exact ⟨y0, x1, rfl, ht', hvx1, rfl⟩
  · rintro ⟨t, x1, rfl, ht, hvx1, rfl⟩
    simp_all [validateMessage, sanityCheck, index, Value.asList?, runSpec, fieldValidator, need, validateDict, validateString, validateList, validateInt, Value.asDict?, Value.asStr?, bind, Except.bind, pure, Except.pure, validateArgs, validateKwargs, validateRequestId, validateId_ok.2 ⟨rfl, hvx1⟩]

theorem Unregistered.parse_total (v : Value) (f : Fields) (h : validateMessage v Unregistered.TYPE Unregistered.spec = .ok f) :
    ∃ m, Unregistered.parse v = .ok m := by
  have h' := h
  unfold Unregistered.spec at h'
  simp only [validateMessage_ok, runSpec_cons_ok, runSpec_nil_ok, fieldValidator_ok, validateRequestId, validateId_ok] at h'
  obtain ⟨msg, rfl, h1, h2, ⟨t, ht, ht'⟩, ⟨_, ⟨_, x1, hx1, ⟨rfl, hvx1⟩, rfl⟩, rfl⟩⟩ := h'
  simp [Unregistered.parse, h, need, bind, Except.bind, pure, Except.pure]

theorem Subscribe.parse_ok (v : Value) (m : Subscribe) : Subscribe.parse v = .ok m ↔
    ∃ t x1 x2 x3, v = .list [t, PyInt.toValue x1, .dict x2, .str x3] ∧
      t.eqInt Subscribe.TYPE = true ∧ ValidId x1 ∧ m = { requestId := x1, options := x2, topic := x3 } := by
  unfold Subscribe.parse Subscribe.spec
  constructor
  · simp only [except_bind_ok, except_pure_ok, need_ok, validateMessage_ok, runSpec_cons_ok, runSpec_nil_ok, fieldValidator_ok, validateOptions, validateRequestId, validateTopic, validateId_ok, validateString_ok, validateDict_ok]
    rintro ⟨f, ⟨msg, rfl, h1, h2, ⟨t, ht, ht'⟩, ⟨_, ⟨_, x1, hx1, ⟨rfl, hvx1⟩, rfl⟩, ⟨_, ⟨_, x2, hx2, rfl, rfl⟩, ⟨_, ⟨_, x3, hx3, rfl, rfl⟩, rfl⟩⟩⟩⟩, hm⟩
    rcases msg with _ | ⟨y0, _ | ⟨y1, _ | ⟨y2, _ | ⟨y3, ⟨z, zs⟩⟩⟩⟩⟩
    all_goals simp at h1 h2 ht hx1 hx2 hx3
    all_goals (try omega)
    all_goals subst ht hx1 hx2 hx3
    simp at hm; subst hm
    exact ⟨y0, x1, x2, x3, rfl, ht', hvx1, rfl⟩
  · rintro ⟨t, x1, x2, x3, rfl, ht, hvx1, rfl⟩
    simp_all [validateMessage, sanityCheck, index, Value.asList?, runSpec, fieldValidator, need, validateDict, validateString, validateList, validateInt, Value.asDict?, Value.asStr?, bind, Except.bind, pure, Except.pure, validateArgs, validateKwargs, validateOptions, validateRequestId, validateTopic, validateId_ok.2 ⟨rfl, hvx1⟩]

theorem Subscribe.parse_total (v : Value) (f : Fields) (h : validateMessage v Subscribe.TYPE Subscribe.spec = .ok f) :
    ∃ m, Subscribe.parse v = .ok m := by
  have h' := h
  unfold Subscribe.spec at h'
  simp only [validateMessage_ok, runSpec_cons_ok, runSpec_nil_ok, fieldValidator_ok, validateOptions, validateRequestId, validateTopic, validateId_ok, validateString_ok, validateDict_ok] at h'
  obtain ⟨msg, rfl, h1, h2, ⟨t, ht, ht'⟩, ⟨_, ⟨_, x1, hx1, ⟨rfl, hvx1⟩, rfl⟩, ⟨_, ⟨_, x2, hx2, rfl, rfl⟩, ⟨_, ⟨_, x3, hx3, rfl, rfl⟩, rfl⟩⟩⟩⟩ := h'
  simp [Subscribe.parse, h, need, bind, Except.bind, pure, Except.pure]

theorem Subscribed.parse_ok (v : Value) (m : Subscribed) : Subscribed.parse v = .ok m ↔
    ∃ t x1 x2, v = .list [t, PyInt.toValue x1, PyInt.toValue x2] ∧
      t.eqInt Subscribed.TYPE = true ∧ ValidId x1 ∧ ValidId x2 ∧ m = { requestId := x1, subscriptionId := x2 } := by
  unfold Subscribed.parse Subscribed.spec
  constructor
  · simp only [except_bind_ok, except_pure_ok, need_ok, validateMessage_ok, runSpec_cons_ok, runSpec_nil_ok, fieldValidator_ok, validateRequestId, validateSubscriptionId, validateId_ok]
    rintro ⟨f, ⟨msg, rfl, h1, h2, ⟨t, ht, ht'⟩, ⟨_, ⟨_, x1, hx1, ⟨rfl, hvx1⟩, rfl⟩, ⟨_, ⟨_, x2, hx2, ⟨rfl, hvx2⟩, rfl⟩, rfl⟩⟩⟩, hm⟩
    rcases msg with _ | ⟨y0, _ | ⟨y1, _ | ⟨y2, ⟨z, zs⟩⟩⟩⟩
    all_goals simp at h1 h2 ht hx1 hx2
    all_goals (try omega)
    all_goals subst ht hx1 hx2
    simp at hm; subst hm
    exact ⟨y0, x1, x2, rfl, ht', hvx1, hvx2, rfl⟩
  · rintro ⟨t, x1, x2, rfl, ht, hvx1, hvx2, rfl⟩
    simp_all [validateMessage, sanityCheck, index, Value.asList?, runSpec, fieldValidator, need, validateDict, validateString, validateList, validateInt, Value.asDict?, Value.asStr?, bind, Except.bind, pure, Except.pure, validateArgs, validateKwargs, validateRequestId, validateSubscriptionId, validateId_ok.2 ⟨rfl, hvx1⟩, validateId_ok.2 ⟨rfl, hvx2⟩]

theorem Subscribed.parse_total (v : Value) (f : Fields) (h : validateMessage v Subscribed.TYPE Subscribed.spec = .ok f) :
    ∃ m, Subscribed.parse v = .ok m := by
  have h' := h
  unfold Subscribed.spec at h'
  simp only [validateMessage_ok, runSpec_cons_ok, runSpec_nil_ok, fieldValidator_ok, validateRequestId, validateSubscriptionId, validateId_ok] at h'
  obtain ⟨msg, rfl, h1, h2, ⟨t, ht, ht'⟩, ⟨_, ⟨_, x1, hx1, ⟨rfl, hvx1⟩, rfl⟩, ⟨_, ⟨_, x2, hx2, ⟨rfl, hvx2⟩, rfl⟩, rfl⟩⟩⟩ := h'
  simp [Subscribed.parse, h, need, bind, Except.bind, pure, Except.pure]

theorem Unsubscribe.parse_ok (v : Value) (m : Unsubscribe) : Unsubscribe.parse v = .ok m ↔
    ∃ t x1 x2, v = .list [t, PyInt.toValue x1, PyInt.toValue x2] ∧
      t.eqInt Unsubscribe.TYPE = true ∧ ValidId x1 ∧ ValidId x2 ∧ m = { requestId := x1, subscriptionId := x2 } := by
  unfold Unsubscribe.parse Unsubscribe.spec
  constructor
  · simp only [except_bind_ok, except_pure_ok, need_ok, validateMessage_ok, runSpec_cons_ok, runSpec_nil_ok, fieldValidator_ok, validateRequestId, validateSubscriptionId, validateId_ok]
    rintro ⟨f, ⟨msg, rfl, h1, h2, ⟨t, ht, ht'⟩, ⟨_, ⟨_, x1, hx1, ⟨rfl, hvx1⟩, rfl⟩, ⟨_, ⟨_, x2, hx2, ⟨rfl, hvx2⟩, rfl⟩, rfl⟩⟩⟩, hm⟩
    rcases msg with _ | ⟨y0, _ | ⟨y1, _ | ⟨y2, ⟨z, zs⟩⟩⟩⟩
    all_goals simp at h1 h2 ht hx1 hx2
    all_goals (try omega)
    all_goals subst ht hx1 hx2
    simp at hm; subst hm
    exact ⟨y0, x1, x2, rfl, ht', hvx1, hvx2, rfl⟩
  · rintro ⟨t, x1, x2, rfl, ht, hvx1, hvx2, rfl⟩
    simp_all [validateMessage, sanityCheck, index, Value.asList?, runSpec, fieldValidator, need, validateDict, validateString, validateList, validateInt, Value.asDict?, Value.asStr?, bind, Except.bind, pure, Except.pure, validateArgs, validateKwargs, validateRequestId, validateSubscriptionId, validateId_ok.2 ⟨rfl, hvx1⟩, validateId_ok.2 ⟨rfl, hvx2⟩]

theorem Unsubscribe.parse_total (v : Value) (f : Fields) (h : validateMessage v Unsubscribe.TYPE Unsubscribe.spec = .ok f) :
    ∃ m, Unsubscribe.parse v = .ok m := by
  have h' := h
  unfold Unsubscribe.spec at h'
  simp only [validateMessage_ok, runSpec_cons_ok, runSpec_nil_ok, fieldValidator_ok, validateRequestId, validateSubscriptionId, validateId_ok] at h'
  obtain ⟨msg, rfl, h1, h2, ⟨t, ht, ht'⟩, ⟨_, ⟨_, x1, hx1, ⟨rfl, hvx1⟩, rfl⟩, ⟨_, ⟨_, x2, hx2, ⟨rfl, hvx2⟩, rfl⟩, rfl⟩⟩⟩ := h'
  simp [Unsubscribe.parse, h, need, bind, Except.bind, pure, Except.pure]

theorem Unsubscribed.parse_ok (v : Value) (m : Unsubscribed) : Unsubscribed.parse v = .ok m ↔
    ∃ t x1, v = .list [t, PyInt.toValue x1] ∧
      t.eqInt Unsubscribed.TYPE = true ∧ ValidId x1 ∧ m = { requestId := x1 } := by
  unfold Unsubscribed.parse Unsubscribed.spec
  constructor
  · simp only [except_bind_ok, except_pure_ok, need_ok, validateMessage_ok, runSpec_cons_ok, runSpec_nil_ok, fieldValidator_ok, validateRequestId, validateId_ok]
    rintro ⟨f, ⟨msg, rfl, h1, h2, ⟨t, ht, ht'⟩, ⟨_, ⟨_, x1, hx1, ⟨rfl, hvx1⟩, rfl⟩, rfl⟩⟩, hm⟩
    rcases msg with _ | ⟨y0, _ | ⟨y1, ⟨z, zs⟩⟩⟩
    all_goals simp at h1 h2 ht hx1
    all_goals (try omega)
    all_goals subst ht hx1
    simp at hm; subst hm
    exact ⟨y0, x1, rfl, ht', hvx1, rfl⟩
  · rintro ⟨t, x1, rfl, ht, hvx1, rfl⟩
    simp_all [validateMessage, sanityCheck, index, Value.asList?, runSpec, fieldValidator, need, validateDict, validateString, validateList, validateInt, Value.asDict?, Value.asStr?, bind, Except.bind, pure, Except.pure, validateArgs, validateKwargs, validateRequestId, validateId_ok.2 ⟨rfl, hvx1⟩]

theorem Unsubscribed.parse_total (v : Value) (f : Fields) (h : validateMessage v Unsubscribed.TYPE Unsubscribed.spec = .ok f) :
    ∃ m, Unsubscribed.parse v = .ok m := by
  have h' := h
  unfold Unsubscribed.spec at h'
  simp only [validateMessage_ok, runSpec_cons_ok, runSpec_nil_ok, fieldValidator_ok, validateRequestId, validateId_ok] at h'
  obtain ⟨msg, rfl, h1, h2, ⟨t, ht, ht'⟩, ⟨_, ⟨_, x1, hx1, ⟨rfl, hvx1⟩, rfl⟩, rfl⟩⟩ := h'
  simp [Unsubscribed.parse, h, need, bind, Except.bind, pure, Except.pure]

theorem Publish.parse_ok (v : Value) (m : Publish) : Publish.parse v = .ok m ↔
    ∃ t x1 x2 x3 args kwargs, v = .list ([t, PyInt.toValue x1, .dict x2, .str x3] ++ payloadTail args kwargs) ∧
      (kwargs.isSome → args.isSome) ∧ t.eqInt Publish.TYPE = true ∧ ValidId x1 ∧ m = { requestId := x1, options := x2, topic := x3, args := args, kwargs := kwargs } := by
  unfold Publish.parse Publish.spec
  constructor
  · simp only [except_bind_ok, except_pure_ok, need_ok, validateMessage_ok, runSpec_cons_ok, runSpec_nil_ok, fieldValidator_ok, validateOptions, validateRequestId, validateTopic, validateId_ok, validateString_ok, validateDict_ok, validateArgs_ok, validateKwargs_ok]
    rintro ⟨f, ⟨msg, rfl, h1, h2, ⟨t, ht, ht'⟩, ⟨_, ⟨_, x1, hx1, ⟨rfl, hvx1⟩, rfl⟩, ⟨_, ⟨_, x2, hx2, rfl, rfl⟩, ⟨_, ⟨_, x3, hx3, rfl, rfl⟩, ⟨_, ha, ⟨_, hk, rfl⟩⟩⟩⟩⟩⟩, hm⟩
    rcases msg with _ | ⟨y0, _ | ⟨y1, _ | ⟨y2, _ | ⟨y3, _ | ⟨y4, _ | ⟨y5, ⟨z, zs⟩⟩⟩⟩⟩⟩⟩
    all_goals simp at h1 h2 ht hx1 hx2 hx3
    all_goals (try omega)
    all_goals subst ht hx1 hx2 hx3
    · simp at ha hk; subst ha hk; simp at hm; subst hm
      exact ⟨y0, x1, x2, x3, none, none, rfl, by simp, ht', hvx1, rfl⟩
    · simp at ha hk; obtain ⟨la, rfl, rfl⟩ := ha; subst hk; simp at hm; subst hm
      exact ⟨y0, x1, x2, x3, some la, none, rfl, by simp, ht', hvx1, rfl⟩
    · simp at ha hk; obtain ⟨la, rfl, rfl⟩ := ha; obtain ⟨lk, rfl, rfl⟩ := hk; simp at hm; subst hm
      exact ⟨y0, x1, x2, x3, some la, some lk, rfl, by simp, ht', hvx1, rfl⟩
  · rintro ⟨t, x1, x2, x3, args, kwargs, rfl, hp, ht, hvx1, rfl⟩
    rcases args with _ | args <;> rcases kwargs with _ | kwargs <;>
      simp_all [payloadTail, validateMessage, sanityCheck, index, Value.asList?, runSpec, fieldValidator, need, validateDict, validateString, validateList, validateInt, Value.asDict?, Value.asStr?, bind, Except.bind, pure, Except.pure, validateArgs, validateKwargs, validateOptions, validateRequestId, validateTopic, validateId_ok.2 ⟨rfl, hvx1⟩]

theorem Publish.parse_total (v : Value) (f : Fields) (h : validateMessage v Publish.TYPE Publish.spec = .ok f) :
    ∃ m, Publish.parse v = .ok m := by
  have h' := h
  unfold Publish.spec at h'
  simp only [validateMessage_ok, runSpec_cons_ok, runSpec_nil_ok, fieldValidator_ok, validateOptions, validateRequestId, validateTopic, validateId_ok, validateString_ok, validateDict_ok, validateArgs_ok, validateKwargs_ok] at h'
  obtain ⟨msg, rfl, h1, h2, ⟨t, ht, ht'⟩, ⟨_, ⟨_, x1, hx1, ⟨rfl, hvx1⟩, rfl⟩, ⟨_, ⟨_, x2, hx2, rfl, rfl⟩, ⟨_, ⟨_, x3, hx3, rfl, rfl⟩, ⟨_, ha, ⟨_, hk, rfl⟩⟩⟩⟩⟩⟩ := h'
  rcases ha with ⟨-, rfl⟩ | ⟨la, -, rfl⟩ <;> rcases hk with ⟨-, rfl⟩ | ⟨lk, -, rfl⟩ <;>
    simp [Publish.parse, h, need, bind, Except.bind, pure, Except.pure]

theorem Published.parse_ok (v : Value) (m : Published) : Published.parse v = .ok m ↔
    ∃ t x1 x2, v = .list [t, PyInt.toValue x1, PyInt.toValue x2] ∧
      t.eqInt Published.TYPE = true ∧ ValidId x1 ∧ ValidId x2 ∧ m = { requestId := x1, publicationId := x2 } := by
  unfold Published.parse Published.spec
  constructor
  · simp only [except_bind_ok, except_pure_ok, need_ok, validateMessage_ok, runSpec_cons_ok, runSpec_nil_ok, fieldValidator_ok, validatePublicationId, validateRequestId, validateId_ok]
    rintro ⟨f, ⟨msg, rfl, h1, h2, ⟨t, ht, ht'⟩, ⟨_, ⟨_, x1, hx1, ⟨rfl, hvx1⟩, rfl⟩, ⟨_, ⟨_, x2, hx2, ⟨rfl, hvx2⟩, rfl⟩, rfl⟩⟩⟩, hm⟩
    rcases msg with _ | ⟨y0, _ | ⟨y1, _ | ⟨y2, ⟨z, zs⟩⟩⟩⟩
    all_goals simp at h1 h2 ht hx1 hx2
    all_goals (try omega)
    all_goals subst ht hx1 hx2
    simp at hm; subst hm
    exact ⟨y0, x1, x2, rfl, ht', hvx1, hvx2, rfl⟩
  · rintro ⟨t, x1, x2, rfl, ht, hvx1, hvx2, rfl⟩
    simp_all [validateMessage, sanityCheck, index, Value.asList?, runSpec, fieldValidator, need, validateDict, validateString, validateList, validateInt, Value.asDict?, Value.asStr?, bind, Except.bind, pure, Except.pure, validateArgs, validateKwargs, validatePublicationId, validateRequestId, validateId_ok.2 ⟨rfl, hvx1⟩, validateId_ok.2 ⟨rfl, hvx2⟩]

theorem Published.parse_total (v : Value) (f : Fields) (h : validateMessage v Published.TYPE Published.spec = .ok f) :
    ∃ m, Published.parse v = .ok m := by
  have h' := h
  unfold Published.spec at h'
  simp only [validateMessage_ok, runSpec_cons_ok, runSpec_nil_ok, fieldValidator_ok, validatePublicationId, validateRequestId, validateId_ok] at h'
  obtain ⟨msg, rfl, h1, h2, ⟨t, ht, ht'⟩, ⟨_, ⟨_, x1, hx1, ⟨rfl, hvx1⟩, rfl⟩, ⟨_, ⟨_, x2, hx2, ⟨rfl, hvx2⟩, rfl⟩, rfl⟩⟩⟩ := h'
  simp [Published.parse, h, need, bind, Except.bind, pure, Except.pure]

theorem Event.parse_ok (v : Value) (m : Event) : Event.parse v = .ok m ↔
    ∃ t x1 x2 x3 args kwargs, v = .list ([t, PyInt.toValue x1, PyInt.toValue x2, .dict x3] ++ payloadTail args kwargs) ∧
      (kwargs.isSome → args.isSome) ∧ t.eqInt Event.TYPE = true ∧ ValidId x1 ∧ ValidId x2 ∧ m = { subscriptionId := x1, publicationId := x2, details := x3, args := args, kwargs := kwargs } := by
  unfold Event.parse Event.spec
  constructor
  · simp only [except_bind_ok, except_pure_ok, need_ok, validateMessage_ok, runSpec_cons_ok, runSpec_nil_ok, fieldValidator_ok, validateDetails, validatePublicationId, validateSubscriptionId, validateId_ok, validateDict_ok, validateArgs_ok, validateKwargs_ok]
    rintro ⟨f, ⟨msg, rfl, h1, h2, ⟨t, ht, ht'⟩, ⟨_, ⟨_, x1, hx1, ⟨rfl, hvx1⟩, rfl⟩, ⟨_, ⟨_, x2, hx2, ⟨rfl, hvx2⟩, rfl⟩, ⟨_, ⟨_, x3, hx3, rfl, rfl⟩, ⟨_, ha, ⟨_, hk, rfl⟩⟩⟩⟩⟩⟩, hm⟩
    rcases msg with _ | ⟨y0, _ | ⟨y1, _ | ⟨y2, _ | ⟨y3, _ | ⟨y4, _ | ⟨y5, ⟨z, zs⟩⟩⟩⟩⟩⟩⟩
    all_goals simp at h1 h2 ht hx1 hx2 hx3
    all_goals (try omega)
    all_goals subst ht hx1 hx2 hx3
    · simp at ha hk; subst ha hk; simp at hm; subst hm
      exact ⟨y0, x1, x2, x3, none, none, rfl, by simp, ht', hvx1, hvx2, rfl⟩
    · simp at ha hk; obtain ⟨la, rfl, rfl⟩ := ha; subst hk; simp at hm; subst hm
      exact ⟨y0, x1, x2, x3, some la, none, rfl, by simp, ht', hvx1, hvx2, rfl⟩
    · simp at ha hk; obtain ⟨la, rfl, rfl⟩ := ha; obtain ⟨lk, rfl, rfl⟩ := hk; simp at hm; subst hm
      exact ⟨y0, x1, x2, x3, some la, some lk, rfl, by simp, ht', hvx1, hvx2, rfl⟩
  · rintro ⟨t, x1, x2, x3, args, kwargs, rfl, hp, ht, hvx1, hvx2, rfl⟩
    rcases args with _ | args <;> rcases kwargs with _ | kwargs <;>
      simp_all [payloadTail, validateMessage, sanityCheck, index, Value.asList?, runSpec, fieldValidator, need, validateDict, validateString, validateList, validateInt, Value.asDict?, Value.asStr?, bind, Except.bind, pure, Except.pure, validateArgs, validateKwargs, validateDetails, validatePublicationId, validateSubscriptionId, validateId_ok.2 ⟨rfl, hvx1⟩, validateId_ok.2 ⟨rfl, hvx2⟩]

theorem Event.parse_total (v : Value) (f : Fields) (h : validateMessage v Event.TYPE Event.spec = .ok f) :
    ∃ m, Event.parse v = .ok m := by
  have h' := h
  unfold Event.spec at h'
  simp only [validateMessage_ok, runSpec_cons_ok, runSpec_nil_ok, fieldValidator_ok, validateDetails, validatePublicationId, validateSubscriptionId, validateId_ok, validateDict_ok, validateArgs_ok, validateKwargs_ok] at h'
  obtain ⟨msg, rfl, h1, h2, ⟨t, ht, ht'⟩, ⟨_, ⟨_, x1, hx1, ⟨rfl, hvx1⟩, rfl⟩, ⟨_, ⟨_, x2, hx2, ⟨rfl, hvx2⟩, rfl⟩, ⟨_, ⟨_, x3, hx3, rfl, rfl⟩, ⟨_, ha, ⟨_, hk, rfl⟩⟩⟩⟩⟩⟩ := h'
  rcases ha with ⟨-, rfl⟩ | ⟨la, -, rfl⟩ <;> rcases hk with ⟨-, rfl⟩ | ⟨lk, -, rfl⟩ <;>
    simp [Event.parse, h, need, bind, Except.bind, pure, Except.pure]

theorem ErrorMsg.parse_ok (v : Value) (m : ErrorMsg) : ErrorMsg.parse v = .ok m ↔
    ∃ t x1 x2 x3 x4 args kwargs, v = .list ([t, PyInt.toValue x1, PyInt.toValue x2, .dict x3, .str x4] ++ payloadTail args kwargs) ∧
      (kwargs.isSome → args.isSome) ∧ t.eqInt ErrorMsg.TYPE = true ∧ ValidId x2 ∧ m = { messageType := x1, requestId := x2, details := x3, uri := x4, args := args, kwargs := kwargs } := by
  unfold ErrorMsg.parse ErrorMsg.spec
  constructor
  · simp only [except_bind_ok, except_pure_ok, need_ok, validateMessage_ok, runSpec_cons_ok, runSpec_nil_ok, fieldValidator_ok, validateDetails, validateMessageType, validateRequestId, validateUri, validateId_ok, validateInt_ok, validateString_ok, validateDict_ok, validateArgs_ok, validateKwargs_ok]
    rintro ⟨f, ⟨msg, rfl, h1, h2, ⟨t, ht, ht'⟩, ⟨_, ⟨_, x1, hx1, rfl, rfl⟩, ⟨_, ⟨_, x2, hx2, ⟨rfl, hvx2⟩, rfl⟩, ⟨_, ⟨_, x3, hx3, rfl, rfl⟩, ⟨_, ⟨_, x4, hx4, rfl, rfl⟩, ⟨_, ha, ⟨_, hk, rfl⟩⟩⟩⟩⟩⟩⟩, hm⟩
    rcases msg with _ | ⟨y0, _ | ⟨y1, _ | ⟨y2, _ | ⟨y3, _ | ⟨y4, _ | ⟨y5, _ | ⟨y6, ⟨z, zs⟩⟩⟩⟩⟩⟩⟩⟩
    all_goals simp at h1 h2 ht hx1 hx2 hx3 hx4
    all_goals (try omega)
    all_goals subst ht hx1 hx2 hx3 hx4
    · simp at ha hk; subst ha hk; simp at hm; subst hm
      exact ⟨y0, x1, x2, x3, x4, none, none, rfl, by simp, ht', hvx2, rfl⟩
    · simp at ha hk; obtain ⟨la, rfl, rfl⟩ := ha; subst hk; simp at hm; subst hm
      exact ⟨y0, x1, x2, x3, x4, some la, none, rfl, by simp, ht', hvx2, rfl⟩
    · simp at ha hk; obtain ⟨la, rfl, rfl⟩ := ha; obtain ⟨lk, rfl, rfl⟩ := hk; simp at hm; subst hm
      exact ⟨y0, x1, x2, x3, x4, some la, some lk, rfl, by simp, ht', hvx2, rfl⟩
  · rintro ⟨t, x1, x2, x3, x4, args, kwargs, rfl, hp, ht, hvx2, rfl⟩
    rcases args with _ | args <;> rcases kwargs with _ | kwargs <;>
      simp_all [payloadTail, validateMessage, sanityCheck, index, Value.asList?, runSpec, fieldValidator, need, validateDict, validateString, validateList, validateInt, Value.asDict?, Value.asStr?, bind, Except.bind, pure, Except.pure, validateArgs, validateKwargs, validateDetails, validateMessageType, validateRequestId, validateUri, validateId_ok.2 ⟨rfl, hvx2⟩]

theorem ErrorMsg.parse_total (v : Value) (f : Fields) (h : validateMessage v ErrorMsg.TYPE ErrorMsg.spec = .ok f) :
    ∃ m, ErrorMsg.parse v = .ok m := by
  have h' := h
  unfold ErrorMsg.spec at h'
  simp only [validateMessage_ok, runSpec_cons_ok, runSpec_nil_ok, fieldValidator_ok, validateDetails, validateMessageType, validateRequestId, validateUri, validateId_ok, validateInt_ok, validateString_ok, validateDict_ok, validateArgs_ok, validateKwargs_ok] at h'
  obtain ⟨msg, rfl, h1, h2, ⟨t, ht, ht'⟩, ⟨_, ⟨_, x1, hx1, rfl, rfl⟩, ⟨_, ⟨_, x2, hx2, ⟨rfl, hvx2⟩, rfl⟩, ⟨_, ⟨_, x3, hx3, rfl, rfl⟩, ⟨_, ⟨_, x4, hx4, rfl, rfl⟩, ⟨_, ha, ⟨_, hk, rfl⟩⟩⟩⟩⟩⟩⟩ := h'
  rcases ha with ⟨-, rfl⟩ | ⟨la, -, rfl⟩ <;> rcases hk with ⟨-, rfl⟩ | ⟨lk, -, rfl⟩ <;>
    simp [ErrorMsg.parse, h, need, bind, Except.bind, pure, Except.pure]

theorem Cancel.parse_ok (v : Value) (m : Cancel) : Cancel.parse v = .ok m ↔
    ∃ t x1 x2, v = .list [t, PyInt.toValue x1, .dict x2] ∧
      t.eqInt Cancel.TYPE = true ∧ ValidId x1 ∧ m = { requestId := x1, options := x2 } := by
  unfold Cancel.parse Cancel.spec
  constructor
  · simp only [except_bind_ok, except_pure_ok, need_ok, validateMessage_ok, runSpec_cons_ok, runSpec_nil_ok, fieldValidator_ok, validateOptions, validateRequestId, validateId_ok, validateDict_ok]
    rintro ⟨f, ⟨msg, rfl, h1, h2, ⟨t, ht, ht'⟩, ⟨_, ⟨_, x1, hx1, ⟨rfl, hvx1⟩, rfl⟩, ⟨_, ⟨_, x2, hx2, rfl, rfl⟩, rfl⟩⟩⟩, hm⟩
    rcases msg with _ | ⟨y0, _ | ⟨y1, _ | ⟨y2, ⟨z, zs⟩⟩⟩⟩
    all_goals simp at h1 h2 ht hx1 hx2
    all_goals (try omega)
    all_goals subst ht hx1 hx2
    simp at hm; subst hm
    exact ⟨y0, x1, x2, rfl, ht', hvx1, rfl⟩
  · rintro ⟨t, x1, x2, rfl, ht, hvx1, rfl⟩
    simp_all [validateMessage, sanityCheck, index, Value.asList?, runSpec, fieldValidator, need, validateDict, validateString, validateList, validateInt, Value.asDict?, Value.asStr?, bind, Except.bind, pure, Except.pure, validateArgs, validateKwargs, validateOptions, validateRequestId, validateId_ok.2 ⟨rfl, hvx1⟩]

theorem Cancel.parse_total (v : Value) (f : Fields) (h : validateMessage v Cancel.TYPE Cancel.spec = .ok f) :
    ∃ m, Cancel.parse v = .ok m := by
  have h' := h
  unfold Cancel.spec at h'
  simp only [validateMessage_ok, runSpec_cons_ok, runSpec_nil_ok, fieldValidator_ok, validateOptions, validateRequestId, validateId_ok, validateDict_ok] at h'
  obtain ⟨msg, rfl, h1, h2, ⟨t, ht, ht'⟩, ⟨_, ⟨_, x1, hx1, ⟨rfl, hvx1⟩, rfl⟩, ⟨_, ⟨_, x2, hx2, rfl, rfl⟩, rfl⟩⟩⟩ := h'
  simp [Cancel.parse, h, need, bind, Except.bind, pure, Except.pure]

theorem Interrupt.parse_ok (v : Value) (m : Interrupt) : Interrupt.parse v = .ok m ↔
    ∃ t x1 x2, v = .list [t, PyInt.toValue x1, .dict x2] ∧
      t.eqInt Interrupt.TYPE = true ∧ ValidId x1 ∧ m = { requestId := x1, options := x2 } := by
  unfold Interrupt.parse Interrupt.spec
  constructor
  · simp only [except_bind_ok, except_pure_ok, need_ok, validateMessage_ok, runSpec_cons_ok, runSpec_nil_ok, fieldValidator_ok, validateOptions, validateRequestId, validateId_ok, validateDict_ok]
    rintro ⟨f, ⟨msg, rfl, h1, h2, ⟨t, ht, ht'⟩, ⟨_, ⟨_, x1, hx1, ⟨rfl, hvx1⟩, rfl⟩, ⟨_, ⟨_, x2, hx2, rfl, rfl⟩, rfl⟩⟩⟩, hm⟩
    rcases msg with _ | ⟨y0, _ | ⟨y1, _ | ⟨y2, ⟨z, zs⟩⟩⟩⟩
    all_goals simp at h1 h2 ht hx1 hx2
    all_goals (try omega)
    all_goals subst ht hx1 hx2
    simp at hm; subst hm
    exact ⟨y0, x1, x2, rfl, ht', hvx1, rfl⟩
  · rintro ⟨t, x1, x2, rfl, ht, hvx1, rfl⟩
    simp_all [validateMessage, sanityCheck, index, Value.asList?, runSpec, fieldValidator, need, validateDict, validateString, validateList, validateInt, Value.asDict?, Value.asStr?, bind, Except.bind, pure, Except.pure, validateArgs, validateKwargs, validateOptions, validateRequestId, validateId_ok.2 ⟨rfl, hvx1⟩]

theorem Interrupt.parse_total (v : Value) (f : Fields) (h : validateMessage v Interrupt.TYPE Interrupt.spec = .ok f) :
    ∃ m, Interrupt.parse v = .ok m := by
  have h' := h
  unfold Interrupt.spec at h'
  simp only [validateMessage_ok, runSpec_cons_ok, runSpec_nil_ok, fieldValidator_ok, validateOptions, validateRequestId, validateId_ok, validateDict_ok] at h'
  obtain ⟨msg, rfl, h1, h2, ⟨t, ht, ht'⟩, ⟨_, ⟨_, x1, hx1, ⟨rfl, hvx1⟩, rfl⟩, ⟨_, ⟨_, x2, hx2, rfl, rfl⟩, rfl⟩⟩⟩ := h'
  simp [Interrupt.parse, h, need, bind, Except.bind, pure, Except.pure]

end Wamp
