import Verif.Proof.RenameState

/-! # All rules use file names only as labels -/

namespace Verif.Lint

open Verif Proto Spec Str

variable {ρ : Str → Str}

theorem require_zero (hρ : Renaming ρ) : RequireState.rename ρ {} = {} := by
  unfold RequireState.rename; rw [hρ.empty]

theorem unset_zero (hρ : Renaming ρ) : UnsetState.rename ρ {} = {} := by
  unfold UnsetState.rename Position.rename; rw [hρ.empty]

theorem pkg_zero (hρ : Renaming ρ) : PkgState.rename ρ {} = {} := by
  unfold PkgState.rename; rw [hρ.empty]; rfl

theorem syntax_zero (hρ : Renaming ρ) : SyntaxState.rename ρ {} = {} := by
  unfold SyntaxState.rename; rw [hρ.empty]; rfl

theorem services_zero (hρ : Renaming ρ) : ServicesState.rename ρ {} = {} := by
  unfold ServicesState.rename; rw [hρ.empty]; rfl

theorem equal_java (hρ : Renaming ρ) (d : FileDescriptor) (_ : Package) (h : d.filename ≠ []) :
    Protostrs.javaOuterClassname (d.rename ρ).filename = Protostrs.javaOuterClassname d.filename := by
  have hf : (d.rename ρ).filename = ρ d.filename := rfl
  rw [hf]
  unfold Protostrs.javaOuterClassname
  rw [if_neg h, if_neg (hρ.nonempty _ h), hρ.base]

/-- No rule uses the file names but as labels. -/
theorem labels_all (hρ : Renaming ρ) (env : Env) : ∀ l ∈ allLinters env, Labels ρ l := by
  unfold allLinters
  simp only [List.forall_mem_cons]
  refine ⟨sim_commentsNoCStyle.labels rfl rfl,
    sim_commentsNoInline.labels rfl rfl,
    sim_enumFieldNamesUppercase.labels rfl rfl,
    sim_enumFieldNamesUpperSnakeCase.labels rfl rfl,
    sim_enumFieldPrefixes.labels rfl rfl,
    sim_enumFieldPrefixesExceptMessage.labels rfl rfl,
    sim_enumFieldsHaveComments.labels rfl rfl,
    sim_enumFieldsHaveSentenceComments.labels rfl rfl,
    sim_enumNamesCamelCase.labels rfl rfl,
    sim_enumNamesCapitalized.labels rfl rfl,
    sim_enumZeroValuesInvalid.labels rfl rfl,
    sim_enumZeroValuesInvalidExceptMessage.labels rfl rfl,
    sim_enumsHaveComments.labels rfl rfl,
    sim_enumsHaveSentenceComments.labels rfl rfl,
    sim_enumsNoAllowAlias.labels rfl rfl,
    sim_fieldsNotReserved.labels rfl rfl,
    sim_fileHeader.labels rfl rfl,
    (sim_fileNamesLowerSnakeCase hρ).labels rfl rfl,
    labels_fileOptionsSameInDir env _ _,
    (sim_equal hρ _ _ fun _ _ _ => rfl).labels rfl rfl,
    (sim_equal hρ _ _ fun _ _ _ => rfl).labels rfl rfl,
    (sim_equal hρ _ _ fun _ _ _ => rfl).labels rfl rfl,
    (sim_equal hρ _ _ fun _ _ _ => rfl).labels rfl rfl,
    (sim_equal hρ _ _ (equal_java hρ)).labels rfl rfl,
    (sim_equal hρ _ _ fun _ _ _ => rfl).labels rfl rfl,
    (sim_equal hρ _ _ fun _ _ _ => rfl).labels rfl rfl,
    (sim_equal hρ _ _ fun _ _ _ => rfl).labels rfl rfl,
    (sim_equal hρ _ _ fun _ _ _ => rfl).labels rfl rfl,
    sim_goPackage.labels rfl rfl,
    labels_fileOptionsSameInDir env _ _,
    labels_fileOptionsSameInDir env _ _,
    labels_fileOptionsSameInDir env _ _,
    labels_fileOptionsSameInDir env _ _,
    labels_fileOptionsSameInDir env _ _,
    (sim_require _).labels rfl (require_zero hρ),
    (sim_require _).labels rfl (require_zero hρ),
    (sim_require _).labels rfl (require_zero hρ),
    (sim_require _).labels rfl (require_zero hρ),
    (sim_require _).labels rfl (require_zero hρ),
    (sim_require _).labels rfl (require_zero hρ),
    (sim_require _).labels rfl (require_zero hρ),
    (sim_require _).labels rfl (require_zero hρ),
    (sim_unset hρ _).labels rfl (unset_zero hρ),
    (sim_unset hρ _).labels rfl (unset_zero hρ),
    sim_gogoNotImported.labels rfl rfl,
    sim_importsNotPublic.labels rfl rfl,
    sim_importsNotWeak.labels rfl rfl,
    sim_messageFieldsDuration.labels rfl rfl,
    sim_messageFieldsHaveComments.labels rfl rfl,
    sim_messageFieldsHaveSentenceComments.labels rfl rfl,
    sim_messageFieldsNotFloats.labels rfl rfl,
    sim_messageFieldsNoJSONName.labels rfl rfl,
    sim_messageFieldsTime.labels rfl rfl,
    sim_messageFieldNamesFilename.labels rfl rfl,
    sim_messageFieldNamesFilepath.labels rfl rfl,
    sim_messageFieldNamesLowerSnakeCase.labels rfl rfl,
    sim_messageFieldNamesLowercase.labels rfl rfl,
    sim_messageFieldNamesNoDescriptor.labels rfl rfl,
    sim_messageNamesCamelCase.labels rfl rfl,
    sim_messageNamesCapitalized.labels rfl rfl,
    sim_messagesHaveComments.labels rfl rfl,
    (sim_messagesHaveCommentsExcept env).labels rfl rfl,
    (sim_messagesHaveSentenceCommentsExcept env).labels rfl rfl,
    (sim_messagesNotEmpty env).labels rfl rfl,
    (sim_names _ _).labels rfl rfl,
    (sim_names _ _).labels rfl rfl,
    (sim_names _ _).labels rfl rfl,
    sim_oneofNamesLowerSnakeCase.labels rfl rfl,
    (sim_packageIsDeclared env).labels rfl (pkg_zero hρ),
    (sim_packageLowerCase env).labels rfl (pkg_zero hρ),
    (sim_packageLowerSnakeCase env).labels rfl (pkg_zero hρ),
    (sim_packageMajorBetaVersioned env).labels rfl (pkg_zero hρ),
    sim_packageNoKeywords.labels rfl rfl,
    labels_packagesSameInDir env,
    sim_rpcsHaveComments.labels rfl rfl,
    sim_rpcsHaveSentenceComments.labels rfl rfl,
    sim_rpcsNoStreaming.labels rfl rfl,
    sim_rpcNamesCamelCase.labels rfl rfl,
    sim_rpcNamesCapitalized.labels rfl rfl,
    sim_http.labels rfl rfl,
    sim_after.labels rfl rfl,
    sim_sameFile.labels rfl rfl,
    (sim_only env).labels rfl rfl,
    sim_unique.labels rfl rfl,
    sim_requestResponseNamesMatchRPC.labels rfl rfl,
    sim_servicesHaveComments.labels rfl rfl,
    sim_servicesHaveSentenceComments.labels rfl rfl,
    sim_serviceNamesAPISuffix.labels rfl rfl,
    sim_serviceNamesCamelCase.labels rfl rfl,
    sim_serviceNamesCapitalized.labels rfl rfl,
    (sim_services hρ).labels rfl (services_zero hρ),
    (sim_serviceNamesNoPlurals env).labels rfl rfl,
    (sim_syntaxProto3 env).labels rfl (syntax_zero hρ),
    (sim_wktDirectlyImported env).labels rfl rfl,
    sim_wktDurationSuffix.labels rfl rfl,
    sim_wktTimestampSuffix.labels rfl rfl,
    fun _ h => nomatch h⟩

end Verif.Lint
