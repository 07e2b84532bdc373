import Verif.Derive.Model
/-!
# The types of examples/tests/12-s1ap.rs

Written by tools/transcribe.py from examples/tests/12-s1ap.rs: one definition per item, its attributes read as
`Verif/Derive/Macro.lean` says the macro reads them, items after those they mention.
-/
namespace Hampi.S1ap

/-- examples/tests/12-s1ap.rs:5223-5225 -/
def OCTET_STRING_2 : Ty := .octetstring none none false
/-- examples/tests/12-s1ap.rs:15-19 -/
def ActivatedCellsList_Item : Ty := .sequence true 0 (.required false OCTET_STRING_2 .nil)
/-- examples/tests/12-s1ap.rs:6-13 -/
def ActivatedCellsList : Ty := .sequenceOf (some 0) (some 256) false ActivatedCellsList_Item
/-- examples/tests/12-s1ap.rs:5227-5229 -/
def Additional_GUTIIE_Extensions_Entry : Ty := .sequence false 0 .nil
/-- examples/tests/12-s1ap.rs:5231-5238 -/
def Additional_GUTIIE_Extensions : Ty := .sequenceOf (some 1) (some 65535) false Additional_GUTIIE_Extensions_Entry
/-- examples/tests/12-s1ap.rs:2659-2661 -/
def M_TMSI : Ty := .octetstring (some 4) (some 4) false
/-- examples/tests/12-s1ap.rs:7745-7747 -/
def GUMMEIIE_Extensions_Entry : Ty := .sequence false 0 .nil
/-- examples/tests/12-s1ap.rs:7749-7756 -/
def GUMMEIIE_Extensions : Ty := .sequenceOf (some 1) (some 65535) false GUMMEIIE_Extensions_Entry
/-- examples/tests/12-s1ap.rs:2862-2864 -/
def MME_Code : Ty := .octetstring (some 1) (some 1) false
/-- examples/tests/12-s1ap.rs:2866-2868 -/
def MME_Group_ID : Ty := .octetstring (some 2) (some 2) false
/-- examples/tests/12-s1ap.rs:4554-4556 -/
def TBCD_STRING : Ty := .octetstring (some 3) (some 3) false
/-- examples/tests/12-s1ap.rs:3371-3371 -/
def PLMNidentity : Ty := TBCD_STRING
/-- examples/tests/12-s1ap.rs:2095-2103 -/
def GUMMEI : Ty := .sequence true 1 (.required false PLMNidentity (.required false MME_Group_ID (.required false MME_Code (.optional 0 GUMMEIIE_Extensions .nil))))
/-- examples/tests/12-s1ap.rs:21-28 -/
def Additional_GUTI : Ty := .sequence true 1 (.required false GUMMEI (.required false M_TMSI (.optional 0 Additional_GUTIIE_Extensions .nil)))
/-- examples/tests/12-s1ap.rs:30-32 -/
def AdditionalCSFallbackIndicator : Ty := .enumerated .u8 (some 0) (some 1) true
/-- examples/tests/12-s1ap.rs:38-40 -/
def AdditionalRRMPriorityIndex : Ty := .bitstring (some 32) (some 32) false
/-- examples/tests/12-s1ap.rs:42-44 -/
def AerialUEsubscriptionInformation : Ty := .enumerated .u8 (some 0) (some 1) true
/-- examples/tests/12-s1ap.rs:5240-5242 -/
def AllocationAndRetentionPriorityIE_Extensions_Entry : Ty := .sequence false 0 .nil
/-- examples/tests/12-s1ap.rs:5244-5253 -/
def AllocationAndRetentionPriorityIE_Extensions : Ty := .sequenceOf (some 1) (some 65535) false AllocationAndRetentionPriorityIE_Extensions_Entry
/-- examples/tests/12-s1ap.rs:3582-3584 -/
def Pre_emptionVulnerability : Ty := .enumerated .u8 (some 0) (some 1) false
/-- examples/tests/12-s1ap.rs:3574-3576 -/
def Pre_emptionCapability : Ty := .enumerated .u8 (some 0) (some 1) false
/-- examples/tests/12-s1ap.rs:3599-3601 -/
def PriorityLevel : Ty := .integer .u8 (some 0) (some 15) false
/-- examples/tests/12-s1ap.rs:50-58 -/
def AllocationAndRetentionPriority : Ty := .sequence true 1 (.required false PriorityLevel (.required false Pre_emptionCapability (.required false Pre_emptionVulnerability (.optional 0 AllocationAndRetentionPriorityIE_Extensions .nil))))
/-- examples/tests/12-s1ap.rs:11000-11002 -/
def TAIBasedMDTIE_Extensions_Entry : Ty := .sequence false 0 .nil
/-- examples/tests/12-s1ap.rs:11004-11011 -/
def TAIBasedMDTIE_Extensions : Ty := .sequenceOf (some 1) (some 65535) false TAIBasedMDTIE_Extensions_Entry
/-- examples/tests/12-s1ap.rs:10961-10963 -/
def TAIIE_Extensions_Entry : Ty := .sequence false 0 .nil
/-- examples/tests/12-s1ap.rs:10965-10972 -/
def TAIIE_Extensions : Ty := .sequenceOf (some 1) (some 65535) false TAIIE_Extensions_Entry
/-- examples/tests/12-s1ap.rs:4438-4440 -/
def TAC : Ty := .octetstring (some 2) (some 2) false
/-- examples/tests/12-s1ap.rs:4442-4449 -/
def TAI : Ty := .sequence true 1 (.required false PLMNidentity (.required false TAC (.optional 0 TAIIE_Extensions .nil)))
/-- examples/tests/12-s1ap.rs:4529-4531 -/
def TAIListforMDT : Ty := .sequenceOf (some 1) (some 8) false TAI
/-- examples/tests/12-s1ap.rs:4487-4493 -/
def TAIBasedMDT : Ty := .sequence true 1 (.required false TAIListforMDT (.optional 0 TAIBasedMDTIE_Extensions .nil))
/-- examples/tests/12-s1ap.rs:5255-5257 -/
def NULL_3 : Ty := .null
/-- examples/tests/12-s1ap.rs:10935-10937 -/
def TABasedMDTIE_Extensions_Entry : Ty := .sequence false 0 .nil
/-- examples/tests/12-s1ap.rs:10939-10946 -/
def TABasedMDTIE_Extensions : Ty := .sequenceOf (some 1) (some 65535) false TABasedMDTIE_Extensions_Entry
/-- examples/tests/12-s1ap.rs:4546-4548 -/
def TAListforMDT : Ty := .sequenceOf (some 1) (some 8) false TAC
/-- examples/tests/12-s1ap.rs:4422-4428 -/
def TABasedMDT : Ty := .sequence true 1 (.required false TAListforMDT (.optional 0 TABasedMDTIE_Extensions .nil))
/-- examples/tests/12-s1ap.rs:5560-5562 -/
def CellBasedMDTIE_Extensions_Entry : Ty := .sequence false 0 .nil
/-- examples/tests/12-s1ap.rs:5564-5571 -/
def CellBasedMDTIE_Extensions : Ty := .sequenceOf (some 1) (some 65535) false CellBasedMDTIE_Extensions_Entry
/-- examples/tests/12-s1ap.rs:7541-7543 -/
def EUTRAN_CGIIE_Extensions_Entry : Ty := .sequence false 0 .nil
/-- examples/tests/12-s1ap.rs:7545-7552 -/
def EUTRAN_CGIIE_Extensions : Ty := .sequenceOf (some 1) (some 65535) false EUTRAN_CGIIE_Extensions_Entry
/-- examples/tests/12-s1ap.rs:680-682 -/
def CellIdentity : Ty := .bitstring (some 28) (some 28) false
/-- examples/tests/12-s1ap.rs:1748-1755 -/
def EUTRAN_CGI : Ty := .sequence true 1 (.required false PLMNidentity (.required false CellIdentity (.optional 0 EUTRAN_CGIIE_Extensions .nil)))
/-- examples/tests/12-s1ap.rs:663-665 -/
def CellIdListforMDT : Ty := .sequenceOf (some 1) (some 32) false EUTRAN_CGI
/-- examples/tests/12-s1ap.rs:612-618 -/
def CellBasedMDT : Ty := .sequence true 1 (.required false CellIdListforMDT (.optional 0 CellBasedMDTIE_Extensions .nil))
/-- examples/tests/12-s1ap.rs:60-71 -/
def AreaScopeOfMDT : Ty := .choice 0 2 true (.cons 0 false CellBasedMDT (.cons 1 false TABasedMDT (.cons 2 false NULL_3 (.cons 0 true TAIBasedMDT .nil))))
/-- examples/tests/12-s1ap.rs:9724-9726 -/
def PLMNAreaBasedQMCIE_Extensions_Entry : Ty := .sequence false 0 .nil
/-- examples/tests/12-s1ap.rs:9728-9735 -/
def PLMNAreaBasedQMCIE_Extensions : Ty := .sequenceOf (some 1) (some 65535) false PLMNAreaBasedQMCIE_Extensions_Entry
/-- examples/tests/12-s1ap.rs:3367-3369 -/
def PLMNListforQMC : Ty := .sequenceOf (some 1) (some 16) false PLMNidentity
/-- examples/tests/12-s1ap.rs:3359-3365 -/
def PLMNAreaBasedQMC : Ty := .sequence true 1 (.required false PLMNListforQMC (.optional 0 PLMNAreaBasedQMCIE_Extensions .nil))
/-- examples/tests/12-s1ap.rs:11013-11015 -/
def TAIBasedQMCIE_Extensions_Entry : Ty := .sequence false 0 .nil
/-- examples/tests/12-s1ap.rs:11017-11024 -/
def TAIBasedQMCIE_Extensions : Ty := .sequenceOf (some 1) (some 65535) false TAIBasedQMCIE_Extensions_Entry
/-- examples/tests/12-s1ap.rs:4533-4535 -/
def TAIListforQMC : Ty := .sequenceOf (some 1) (some 8) false TAI
/-- examples/tests/12-s1ap.rs:4495-4501 -/
def TAIBasedQMC : Ty := .sequence true 1 (.required false TAIListforQMC (.optional 0 TAIBasedQMCIE_Extensions .nil))
/-- examples/tests/12-s1ap.rs:10948-10950 -/
def TABasedQMCIE_Extensions_Entry : Ty := .sequence false 0 .nil
/-- examples/tests/12-s1ap.rs:10952-10959 -/
def TABasedQMCIE_Extensions : Ty := .sequenceOf (some 1) (some 65535) false TABasedQMCIE_Extensions_Entry
/-- examples/tests/12-s1ap.rs:4550-4552 -/
def TAListforQMC : Ty := .sequenceOf (some 1) (some 8) false TAC
/-- examples/tests/12-s1ap.rs:4430-4436 -/
def TABasedQMC : Ty := .sequence true 1 (.required false TAListforQMC (.optional 0 TABasedQMCIE_Extensions .nil))
/-- examples/tests/12-s1ap.rs:5573-5575 -/
def CellBasedQMCIE_Extensions_Entry : Ty := .sequence false 0 .nil
/-- examples/tests/12-s1ap.rs:5577-5584 -/
def CellBasedQMCIE_Extensions : Ty := .sequenceOf (some 1) (some 65535) false CellBasedQMCIE_Extensions_Entry
/-- examples/tests/12-s1ap.rs:667-669 -/
def CellIdListforQMC : Ty := .sequenceOf (some 1) (some 32) false EUTRAN_CGI
/-- examples/tests/12-s1ap.rs:620-626 -/
def CellBasedQMC : Ty := .sequence true 1 (.required false CellIdListforQMC (.optional 0 CellBasedQMCIE_Extensions .nil))
/-- examples/tests/12-s1ap.rs:73-84 -/
def AreaScopeOfQMC : Ty := .choice 0 3 true (.cons 0 false CellBasedQMC (.cons 1 false TABasedQMC (.cons 2 false TAIBasedQMC (.cons 3 false PLMNAreaBasedQMC .nil))))
/-- examples/tests/12-s1ap.rs:5259-5261 -/
def AssistanceDataForCECapableUEsIE_Extensions_Entry : Ty := .sequence false 0 .nil
/-- examples/tests/12-s1ap.rs:5263-5272 -/
def AssistanceDataForCECapableUEsIE_Extensions : Ty := .sequenceOf (some 1) (some 65535) false AssistanceDataForCECapableUEsIE_Extensions_Entry
/-- examples/tests/12-s1ap.rs:5612-5614 -/
def CellIdentifierAndCELevelForCECapableUEsIE_Extensions_Entry : Ty := .sequence false 0 .nil
/-- examples/tests/12-s1ap.rs:5616-5625 -/
def CellIdentifierAndCELevelForCECapableUEsIE_Extensions : Ty := .sequenceOf (some 1) (some 65535) false CellIdentifierAndCELevelForCECapableUEsIE_Extensions_Entry
/-- examples/tests/12-s1ap.rs:240-242 -/
def CELevel : Ty := .octetstring none none false
/-- examples/tests/12-s1ap.rs:671-678 -/
def CellIdentifierAndCELevelForCECapableUEs : Ty := .sequence true 1 (.required false EUTRAN_CGI (.required false CELevel (.optional 0 CellIdentifierAndCELevelForCECapableUEsIE_Extensions .nil)))
/-- examples/tests/12-s1ap.rs:86-92 -/
def AssistanceDataForCECapableUEs : Ty := .sequence true 1 (.required false CellIdentifierAndCELevelForCECapableUEs (.optional 0 AssistanceDataForCECapableUEsIE_Extensions .nil))
/-- examples/tests/12-s1ap.rs:5274-5276 -/
def AssistanceDataForPagingIE_Extensions_Entry : Ty := .sequence false 0 .nil
/-- examples/tests/12-s1ap.rs:5278-5287 -/
def AssistanceDataForPagingIE_Extensions : Ty := .sequenceOf (some 1) (some 65535) false AssistanceDataForPagingIE_Extensions_Entry
/-- examples/tests/12-s1ap.rs:9880-9882 -/
def PagingAttemptInformationIE_Extensions_Entry : Ty := .sequence false 0 .nil
/-- examples/tests/12-s1ap.rs:9884-9893 -/
def PagingAttemptInformationIE_Extensions : Ty := .sequenceOf (some 1) (some 65535) false PagingAttemptInformationIE_Extensions_Entry
/-- examples/tests/12-s1ap.rs:3210-3212 -/
def NextPagingAreaScope : Ty := .enumerated .u8 (some 0) (some 1) true
/-- examples/tests/12-s1ap.rs:2412-2414 -/
def IntendedNumberOfPagingAttempts : Ty := .integer .u8 (some 1) (some 16) true
/-- examples/tests/12-s1ap.rs:3449-3451 -/
def PagingAttemptCount : Ty := .integer .u8 (some 1) (some 16) true
/-- examples/tests/12-s1ap.rs:3453-3462 -/
def PagingAttemptInformation : Ty := .sequence true 2 (.required false PagingAttemptCount (.required false IntendedNumberOfPagingAttempts (.optional 0 NextPagingAreaScope (.optional 1 PagingAttemptInformationIE_Extensions .nil))))
/-- examples/tests/12-s1ap.rs:5289-5291 -/
def AssistanceDataForRecommendedCellsIE_Extensions_Entry : Ty := .sequence false 0 .nil
/-- examples/tests/12-s1ap.rs:5293-5302 -/
def AssistanceDataForRecommendedCellsIE_Extensions : Ty := .sequenceOf (some 1) (some 65535) false AssistanceDataForRecommendedCellsIE_Extensions_Entry
/-- examples/tests/12-s1ap.rs:10180-10182 -/
def RecommendedCellsForPagingIE_Extensions_Entry : Ty := .sequence false 0 .nil
/-- examples/tests/12-s1ap.rs:10184-10193 -/
def RecommendedCellsForPagingIE_Extensions : Ty := .sequenceOf (some 1) (some 65535) false RecommendedCellsForPagingIE_Extensions_Entry
/-- examples/tests/12-s1ap.rs:10151-10153 -/
def RecommendedCellItemIE_Extensions_Entry : Ty := .sequence false 0 .nil
/-- examples/tests/12-s1ap.rs:10155-10162 -/
def RecommendedCellItemIE_Extensions : Ty := .sequenceOf (some 1) (some 65535) false RecommendedCellItemIE_Extensions_Entry
/-- examples/tests/12-s1ap.rs:10147-10149 -/
def INTEGER_51 : Ty := .integer .u16 (some 0) (some 4095) false
/-- examples/tests/12-s1ap.rs:3789-3797 -/
def RecommendedCellItem : Ty := .sequence true 2 (.required false EUTRAN_CGI (.optional 0 INTEGER_51 (.optional 1 RecommendedCellItemIE_Extensions .nil)))
/-- examples/tests/12-s1ap.rs:10164-10169 -/
def RecommendedCellList_EntryValue : Ty := .openType (.cons 214 false RecommendedCellItem .nil)
/-- examples/tests/12-s1ap.rs:839-841 -/
def Criticality : Ty := .enumerated .u8 (some 0) (some 2) false
/-- examples/tests/12-s1ap.rs:3669-3671 -/
def ProtocolIE_ID : Ty := .integer .u16 (some 0) (some 65535) false
/-- examples/tests/12-s1ap.rs:10171-10178 -/
def RecommendedCellList_Entry : Ty := .sequence false 0 (.required true ProtocolIE_ID (.required false Criticality (.required false RecommendedCellList_EntryValue .nil)))
/-- examples/tests/12-s1ap.rs:3799-3801 -/
def RecommendedCellList : Ty := .sequenceOf (some 1) (some 16) false RecommendedCellList_Entry
/-- examples/tests/12-s1ap.rs:3803-3809 -/
def RecommendedCellsForPaging : Ty := .sequence true 1 (.required false RecommendedCellList (.optional 0 RecommendedCellsForPagingIE_Extensions .nil))
/-- examples/tests/12-s1ap.rs:107-113 -/
def AssistanceDataForRecommendedCells : Ty := .sequence true 1 (.required false RecommendedCellsForPaging (.optional 0 AssistanceDataForRecommendedCellsIE_Extensions .nil))
/-- examples/tests/12-s1ap.rs:94-105 -/
def AssistanceDataForPaging : Ty := .sequence true 4 (.optional 0 AssistanceDataForRecommendedCells (.optional 1 AssistanceDataForCECapableUEs (.optional 2 PagingAttemptInformation (.optional 3 AssistanceDataForPagingIE_Extensions .nil))))
/-- examples/tests/12-s1ap.rs:115-117 -/
def BPLMNs : Ty := .sequenceOf (some 1) (some 6) false PLMNidentity
/-- examples/tests/12-s1ap.rs:119-121 -/
def BearerType : Ty := .enumerated .u8 (some 0) (some 0) true
/-- examples/tests/12-s1ap.rs:5304-5306 -/
def Bearers_SubjectToEarlyStatusTransfer_ItemIE_Extensions_Entry : Ty := .sequence false 0 .nil
/-- examples/tests/12-s1ap.rs:5308-5317 -/
def Bearers_SubjectToEarlyStatusTransfer_ItemIE_Extensions : Ty := .sequenceOf (some 1) (some 65535) false Bearers_SubjectToEarlyStatusTransfer_ItemIE_Extensions_Entry
/-- examples/tests/12-s1ap.rs:5464-5466 -/
def COUNTvaluePDCP_SNlength18IE_Extensions_Entry : Ty := .sequence false 0 .nil
/-- examples/tests/12-s1ap.rs:5468-5477 -/
def COUNTvaluePDCP_SNlength18IE_Extensions : Ty := .sequenceOf (some 1) (some 65535) false COUNTvaluePDCP_SNlength18IE_Extensions_Entry
/-- examples/tests/12-s1ap.rs:2173-2175 -/
def HFNforPDCP_SNlength18 : Ty := .integer .u16 (some 0) (some 16383) false
/-- examples/tests/12-s1ap.rs:3355-3357 -/
def PDCP_SNlength18 : Ty := .integer .u32 (some 0) (some 262143) false
/-- examples/tests/12-s1ap.rs:306-313 -/
def COUNTvaluePDCP_SNlength18 : Ty := .sequence true 1 (.required false PDCP_SNlength18 (.required false HFNforPDCP_SNlength18 (.optional 0 COUNTvaluePDCP_SNlength18IE_Extensions .nil)))
/-- examples/tests/12-s1ap.rs:5438-5440 -/
def COUNTValueExtendedIE_Extensions_Entry : Ty := .sequence false 0 .nil
/-- examples/tests/12-s1ap.rs:5442-5449 -/
def COUNTValueExtendedIE_Extensions : Ty := .sequenceOf (some 1) (some 65535) false COUNTValueExtendedIE_Extensions_Entry
/-- examples/tests/12-s1ap.rs:2169-2171 -/
def HFNModified : Ty := .integer .u32 (some 0) (some 131071) false
/-- examples/tests/12-s1ap.rs:3351-3353 -/
def PDCP_SNExtended : Ty := .integer .u16 (some 0) (some 32767) false
/-- examples/tests/12-s1ap.rs:288-295 -/
def COUNTValueExtended : Ty := .sequence true 1 (.required false PDCP_SNExtended (.required false HFNModified (.optional 0 COUNTValueExtendedIE_Extensions .nil)))
/-- examples/tests/12-s1ap.rs:5451-5453 -/
def COUNTvalueIE_Extensions_Entry : Ty := .sequence false 0 .nil
/-- examples/tests/12-s1ap.rs:5455-5462 -/
def COUNTvalueIE_Extensions : Ty := .sequenceOf (some 1) (some 65535) false COUNTvalueIE_Extensions_Entry
/-- examples/tests/12-s1ap.rs:2165-2167 -/
def HFN : Ty := .integer .u32 (some 0) (some 1048575) false
/-- examples/tests/12-s1ap.rs:3347-3349 -/
def PDCP_SN : Ty := .integer .u16 (some 0) (some 4095) false
/-- examples/tests/12-s1ap.rs:297-304 -/
def COUNTvalue : Ty := .sequence true 1 (.required false PDCP_SN (.required false HFN (.optional 0 COUNTvalueIE_Extensions .nil)))
/-- examples/tests/12-s1ap.rs:939-948 -/
def DLCOUNT_PDCP_SNlength : Ty := .choice 0 2 true (.cons 0 false COUNTvalue (.cons 1 false COUNTValueExtended (.cons 2 false COUNTvaluePDCP_SNlength18 .nil)))
/-- examples/tests/12-s1ap.rs:1009-1011 -/
def E_RAB_ID : Ty := .integer .u8 (some 0) (some 15) true
/-- examples/tests/12-s1ap.rs:126-133 -/
def Bearers_SubjectToEarlyStatusTransfer_Item : Ty := .sequence true 1 (.required false E_RAB_ID (.required false DLCOUNT_PDCP_SNlength (.optional 0 Bearers_SubjectToEarlyStatusTransfer_ItemIE_Extensions .nil)))
/-- examples/tests/12-s1ap.rs:5319-5324 -/
def Bearers_SubjectToEarlyStatusTransferList_EntryValue : Ty := .openType (.cons 322 false Bearers_SubjectToEarlyStatusTransfer_Item .nil)
/-- examples/tests/12-s1ap.rs:5326-5333 -/
def Bearers_SubjectToEarlyStatusTransferList_Entry : Ty := .sequence false 0 (.required true ProtocolIE_ID (.required false Criticality (.required false Bearers_SubjectToEarlyStatusTransferList_EntryValue .nil)))
/-- examples/tests/12-s1ap.rs:135-144 -/
def Bearers_SubjectToEarlyStatusTransferList : Ty := .sequenceOf (some 1) (some 256) false Bearers_SubjectToEarlyStatusTransferList_Entry
/-- examples/tests/12-s1ap.rs:3771-3778 -/
def ReceiveStatusOfULPDCPSDUsPDCP_SNlength18 : Ty := .bitstring (some 1) (some 131072) false
/-- examples/tests/12-s1ap.rs:3762-3769 -/
def ReceiveStatusOfULPDCPSDUsExtended : Ty := .bitstring (some 1) (some 16384) false
/-- examples/tests/12-s1ap.rs:5335-5350 -/
def Bearers_SubjectToStatusTransfer_ItemIE_Extensions_EntryExtensionValue : Ty := .openType (.cons 180 false COUNTValueExtended (.cons 218 false COUNTvaluePDCP_SNlength18 (.cons 181 false ReceiveStatusOfULPDCPSDUsExtended (.cons 219 false ReceiveStatusOfULPDCPSDUsPDCP_SNlength18 (.cons 179 false COUNTValueExtended (.cons 217 false COUNTvaluePDCP_SNlength18 .nil))))))
/-- examples/tests/12-s1ap.rs:3665-3667 -/
def ProtocolExtensionID : Ty := .integer .u16 (some 0) (some 65535) false
/-- examples/tests/12-s1ap.rs:5352-5359 -/
def Bearers_SubjectToStatusTransfer_ItemIE_Extensions_Entry : Ty := .sequence false 0 (.required true ProtocolExtensionID (.required false Criticality (.required false Bearers_SubjectToStatusTransfer_ItemIE_Extensions_EntryExtensionValue .nil)))
/-- examples/tests/12-s1ap.rs:5361-5370 -/
def Bearers_SubjectToStatusTransfer_ItemIE_Extensions : Ty := .sequenceOf (some 1) (some 65535) false Bearers_SubjectToStatusTransfer_ItemIE_Extensions_Entry
/-- examples/tests/12-s1ap.rs:3780-3787 -/
def ReceiveStatusofULPDCPSDUs : Ty := .bitstring (some 4096) (some 4096) false
/-- examples/tests/12-s1ap.rs:146-156 -/
def Bearers_SubjectToStatusTransfer_Item : Ty := .sequence true 2 (.required false E_RAB_ID (.required false COUNTvalue (.required false COUNTvalue (.optional 0 ReceiveStatusofULPDCPSDUs (.optional 1 Bearers_SubjectToStatusTransfer_ItemIE_Extensions .nil)))))
/-- examples/tests/12-s1ap.rs:5372-5377 -/
def Bearers_SubjectToStatusTransferList_EntryValue : Ty := .openType (.cons 89 false Bearers_SubjectToStatusTransfer_Item .nil)
/-- examples/tests/12-s1ap.rs:5379-5386 -/
def Bearers_SubjectToStatusTransferList_Entry : Ty := .sequence false 0 (.required true ProtocolIE_ID (.required false Criticality (.required false Bearers_SubjectToStatusTransferList_EntryValue .nil)))
/-- examples/tests/12-s1ap.rs:158-165 -/
def Bearers_SubjectToStatusTransferList : Ty := .sequenceOf (some 1) (some 256) false Bearers_SubjectToStatusTransferList_Entry
/-- examples/tests/12-s1ap.rs:167-169 -/
def BitRate : Ty := .integer .u64 (some 0) (some 10000000000) false
/-- examples/tests/12-s1ap.rs:171-173 -/
def BluetoothMeasConfig : Ty := .enumerated .u8 (some 0) (some 0) true
/-- examples/tests/12-s1ap.rs:194-201 -/
def BluetoothName : Ty := .octetstring (some 1) (some 248) false
/-- examples/tests/12-s1ap.rs:178-180 -/
def BluetoothMeasConfigNameList : Ty := .sequenceOf (some 1) (some 4) false BluetoothName
/-- examples/tests/12-s1ap.rs:5395-5397 -/
def BluetoothMeasurementConfigurationIE_Extensions_Entry : Ty := .sequence false 0 .nil
/-- examples/tests/12-s1ap.rs:5399-5408 -/
def BluetoothMeasurementConfigurationIE_Extensions : Ty := .sequenceOf (some 1) (some 65535) false BluetoothMeasurementConfigurationIE_Extensions_Entry
/-- examples/tests/12-s1ap.rs:5388-5390 -/
def ENUMERATED_4 : Ty := .enumerated .u8 (some 0) (some 0) true
/-- examples/tests/12-s1ap.rs:182-192 -/
def BluetoothMeasurementConfiguration : Ty := .sequence true 3 (.required false BluetoothMeasConfig (.optional 0 BluetoothMeasConfigNameList (.optional 1 ENUMERATED_4 (.optional 2 BluetoothMeasurementConfigurationIE_Extensions .nil))))
/-- examples/tests/12-s1ap.rs:7573-7575 -/
def EmergencyAreaID_Cancelled_ItemIE_Extensions_Entry : Ty := .sequence false 0 .nil
/-- examples/tests/12-s1ap.rs:7577-7586 -/
def EmergencyAreaID_Cancelled_ItemIE_Extensions : Ty := .sequenceOf (some 1) (some 65535) false EmergencyAreaID_Cancelled_ItemIE_Extensions_Entry
/-- examples/tests/12-s1ap.rs:5505-5507 -/
def CancelledCellinEAI_ItemIE_Extensions_Entry : Ty := .sequence false 0 .nil
/-- examples/tests/12-s1ap.rs:5509-5518 -/
def CancelledCellinEAI_ItemIE_Extensions : Ty := .sequenceOf (some 1) (some 65535) false CancelledCellinEAI_ItemIE_Extensions_Entry
/-- examples/tests/12-s1ap.rs:3249-3251 -/
def NumberOfBroadcasts : Ty := .integer .u16 (some 0) (some 65535) false
/-- examples/tests/12-s1ap.rs:373-380 -/
def CancelledCellinEAI_Item : Ty := .sequence true 1 (.required false EUTRAN_CGI (.required false NumberOfBroadcasts (.optional 0 CancelledCellinEAI_ItemIE_Extensions .nil)))
/-- examples/tests/12-s1ap.rs:364-371 -/
def CancelledCellinEAI : Ty := .sequenceOf (some 1) (some 65535) false CancelledCellinEAI_Item
/-- examples/tests/12-s1ap.rs:1774-1776 -/
def EmergencyAreaID : Ty := .octetstring (some 3) (some 3) false
/-- examples/tests/12-s1ap.rs:1805-1812 -/
def EmergencyAreaID_Cancelled_Item : Ty := .sequence true 1 (.required false EmergencyAreaID (.required false CancelledCellinEAI (.optional 0 EmergencyAreaID_Cancelled_ItemIE_Extensions .nil)))
/-- examples/tests/12-s1ap.rs:1796-1803 -/
def EmergencyAreaID_Cancelled : Ty := .sequenceOf (some 1) (some 65535) false EmergencyAreaID_Cancelled_Item
/-- examples/tests/12-s1ap.rs:10987-10989 -/
def TAI_Cancelled_ItemIE_Extensions_Entry : Ty := .sequence false 0 .nil
/-- examples/tests/12-s1ap.rs:10991-10998 -/
def TAI_Cancelled_ItemIE_Extensions : Ty := .sequenceOf (some 1) (some 65535) false TAI_Cancelled_ItemIE_Extensions_Entry
/-- examples/tests/12-s1ap.rs:5520-5522 -/
def CancelledCellinTAI_ItemIE_Extensions_Entry : Ty := .sequence false 0 .nil
/-- examples/tests/12-s1ap.rs:5524-5533 -/
def CancelledCellinTAI_ItemIE_Extensions : Ty := .sequenceOf (some 1) (some 65535) false CancelledCellinTAI_ItemIE_Extensions_Entry
/-- examples/tests/12-s1ap.rs:391-398 -/
def CancelledCellinTAI_Item : Ty := .sequence true 1 (.required false EUTRAN_CGI (.required false NumberOfBroadcasts (.optional 0 CancelledCellinTAI_ItemIE_Extensions .nil)))
/-- examples/tests/12-s1ap.rs:382-389 -/
def CancelledCellinTAI : Ty := .sequenceOf (some 1) (some 65535) false CancelledCellinTAI_Item
/-- examples/tests/12-s1ap.rs:4478-4485 -/
def TAI_Cancelled_Item : Ty := .sequence true 1 (.required false TAI (.required false CancelledCellinTAI (.optional 0 TAI_Cancelled_ItemIE_Extensions .nil)))
/-- examples/tests/12-s1ap.rs:4469-4476 -/
def TAI_Cancelled : Ty := .sequenceOf (some 1) (some 65535) false TAI_Cancelled_Item
/-- examples/tests/12-s1ap.rs:5599-5601 -/
def CellID_Cancelled_ItemIE_Extensions_Entry : Ty := .sequence false 0 .nil
/-- examples/tests/12-s1ap.rs:5603-5610 -/
def CellID_Cancelled_ItemIE_Extensions : Ty := .sequenceOf (some 1) (some 65535) false CellID_Cancelled_ItemIE_Extensions_Entry
/-- examples/tests/12-s1ap.rs:654-661 -/
def CellID_Cancelled_Item : Ty := .sequence true 1 (.required false EUTRAN_CGI (.required false NumberOfBroadcasts (.optional 0 CellID_Cancelled_ItemIE_Extensions .nil)))
/-- examples/tests/12-s1ap.rs:645-652 -/
def CellID_Cancelled : Ty := .sequenceOf (some 1) (some 65535) false CellID_Cancelled_Item
/-- examples/tests/12-s1ap.rs:203-212 -/
def BroadcastCancelledAreaList : Ty := .choice 0 2 true (.cons 0 false CellID_Cancelled (.cons 1 false TAI_Cancelled (.cons 2 false EmergencyAreaID_Cancelled .nil)))
/-- examples/tests/12-s1ap.rs:7558-7560 -/
def EmergencyAreaID_Broadcast_ItemIE_Extensions_Entry : Ty := .sequence false 0 .nil
/-- examples/tests/12-s1ap.rs:7562-7571 -/
def EmergencyAreaID_Broadcast_ItemIE_Extensions : Ty := .sequenceOf (some 1) (some 65535) false EmergencyAreaID_Broadcast_ItemIE_Extensions_Entry
/-- examples/tests/12-s1ap.rs:5687-5689 -/
def CompletedCellinEAI_ItemIE_Extensions_Entry : Ty := .sequence false 0 .nil
/-- examples/tests/12-s1ap.rs:5691-5700 -/
def CompletedCellinEAI_ItemIE_Extensions : Ty := .sequenceOf (some 1) (some 65535) false CompletedCellinEAI_ItemIE_Extensions_Entry
/-- examples/tests/12-s1ap.rs:759-765 -/
def CompletedCellinEAI_Item : Ty := .sequence true 1 (.required false EUTRAN_CGI (.optional 0 CompletedCellinEAI_ItemIE_Extensions .nil))
/-- examples/tests/12-s1ap.rs:750-757 -/
def CompletedCellinEAI : Ty := .sequenceOf (some 1) (some 65535) false CompletedCellinEAI_Item
/-- examples/tests/12-s1ap.rs:1787-1794 -/
def EmergencyAreaID_Broadcast_Item : Ty := .sequence true 1 (.required false EmergencyAreaID (.required false CompletedCellinEAI (.optional 0 EmergencyAreaID_Broadcast_ItemIE_Extensions .nil)))
/-- examples/tests/12-s1ap.rs:1778-1785 -/
def EmergencyAreaID_Broadcast : Ty := .sequenceOf (some 1) (some 65535) false EmergencyAreaID_Broadcast_Item
/-- examples/tests/12-s1ap.rs:10974-10976 -/
def TAI_Broadcast_ItemIE_Extensions_Entry : Ty := .sequence false 0 .nil
/-- examples/tests/12-s1ap.rs:10978-10985 -/
def TAI_Broadcast_ItemIE_Extensions : Ty := .sequenceOf (some 1) (some 65535) false TAI_Broadcast_ItemIE_Extensions_Entry
/-- examples/tests/12-s1ap.rs:5702-5704 -/
def CompletedCellinTAI_ItemIE_Extensions_Entry : Ty := .sequence false 0 .nil
/-- examples/tests/12-s1ap.rs:5706-5715 -/
def CompletedCellinTAI_ItemIE_Extensions : Ty := .sequenceOf (some 1) (some 65535) false CompletedCellinTAI_ItemIE_Extensions_Entry
/-- examples/tests/12-s1ap.rs:776-782 -/
def CompletedCellinTAI_Item : Ty := .sequence true 1 (.required false EUTRAN_CGI (.optional 0 CompletedCellinTAI_ItemIE_Extensions .nil))
/-- examples/tests/12-s1ap.rs:767-774 -/
def CompletedCellinTAI : Ty := .sequenceOf (some 1) (some 65535) false CompletedCellinTAI_Item
/-- examples/tests/12-s1ap.rs:4460-4467 -/
def TAI_Broadcast_Item : Ty := .sequence true 1 (.required false TAI (.required false CompletedCellinTAI (.optional 0 TAI_Broadcast_ItemIE_Extensions .nil)))
/-- examples/tests/12-s1ap.rs:4451-4458 -/
def TAI_Broadcast : Ty := .sequenceOf (some 1) (some 65535) false TAI_Broadcast_Item
/-- examples/tests/12-s1ap.rs:5586-5588 -/
def CellID_Broadcast_ItemIE_Extensions_Entry : Ty := .sequence false 0 .nil
/-- examples/tests/12-s1ap.rs:5590-5597 -/
def CellID_Broadcast_ItemIE_Extensions : Ty := .sequenceOf (some 1) (some 65535) false CellID_Broadcast_ItemIE_Extensions_Entry
/-- examples/tests/12-s1ap.rs:637-643 -/
def CellID_Broadcast_Item : Ty := .sequence true 1 (.required false EUTRAN_CGI (.optional 0 CellID_Broadcast_ItemIE_Extensions .nil))
/-- examples/tests/12-s1ap.rs:628-635 -/
def CellID_Broadcast : Ty := .sequenceOf (some 1) (some 65535) false CellID_Broadcast_Item
/-- examples/tests/12-s1ap.rs:214-223 -/
def BroadcastCompletedAreaList : Ty := .choice 0 2 true (.cons 0 false CellID_Broadcast (.cons 1 false TAI_Broadcast (.cons 2 false EmergencyAreaID_Broadcast .nil)))
/-- examples/tests/12-s1ap.rs:225-227 -/
def CE_ModeBRestricted : Ty := .enumerated .u8 (some 0) (some 1) true
/-- examples/tests/12-s1ap.rs:233-235 -/
def CE_mode_B_SupportIndicator : Ty := .enumerated .u8 (some 0) (some 0) true
/-- examples/tests/12-s1ap.rs:5410-5412 -/
def CGIIE_Extensions_Entry : Ty := .sequence false 0 .nil
/-- examples/tests/12-s1ap.rs:5414-5421 -/
def CGIIE_Extensions : Ty := .sequenceOf (some 1) (some 65535) false CGIIE_Extensions_Entry
/-- examples/tests/12-s1ap.rs:3677-3679 -/
def RAC : Ty := .octetstring (some 1) (some 1) false
/-- examples/tests/12-s1ap.rs:256-258 -/
def CI : Ty := .octetstring (some 2) (some 2) false
/-- examples/tests/12-s1ap.rs:2506-2508 -/
def LAC : Ty := .octetstring (some 2) (some 2) false
/-- examples/tests/12-s1ap.rs:244-254 -/
def CGI : Ty := .sequence true 2 (.required false PLMNidentity (.required false LAC (.required false CI (.optional 0 RAC (.optional 1 CGIIE_Extensions .nil)))))
/-- examples/tests/12-s1ap.rs:260-262 -/
def CNDomain : Ty := .enumerated .u8 (some 0) (some 1) false
/-- examples/tests/12-s1ap.rs:268-270 -/
def CNType : Ty := .enumerated .u8 (some 0) (some 0) true
/-- examples/tests/12-s1ap.rs:5423-5425 -/
def CNTypeRestrictions_ItemIE_Extensions_Entry : Ty := .sequence false 0 .nil
/-- examples/tests/12-s1ap.rs:5427-5436 -/
def CNTypeRestrictions_ItemIE_Extensions : Ty := .sequenceOf (some 1) (some 65535) false CNTypeRestrictions_ItemIE_Extensions_Entry
/-- examples/tests/12-s1ap.rs:279-286 -/
def CNTypeRestrictions_Item : Ty := .sequence true 1 (.required false PLMNidentity (.required false CNType (.optional 0 CNTypeRestrictions_ItemIE_Extensions .nil)))
/-- examples/tests/12-s1ap.rs:275-277 -/
def CNTypeRestrictions : Ty := .sequenceOf (some 1) (some 16) false CNTypeRestrictions_Item
/-- examples/tests/12-s1ap.rs:315-317 -/
def CSFallbackIndicator : Ty := .enumerated .u8 (some 0) (some 0) true
/-- examples/tests/12-s1ap.rs:322-324 -/
def CSG_Id : Ty := .bitstring (some 27) (some 27) false
/-- examples/tests/12-s1ap.rs:5479-5481 -/
def CSG_IdList_ItemIE_Extensions_Entry : Ty := .sequence false 0 .nil
/-- examples/tests/12-s1ap.rs:5483-5490 -/
def CSG_IdList_ItemIE_Extensions : Ty := .sequenceOf (some 1) (some 65535) false CSG_IdList_ItemIE_Extensions_Entry
/-- examples/tests/12-s1ap.rs:335-341 -/
def CSG_IdList_Item : Ty := .sequence true 1 (.required false CSG_Id (.optional 0 CSG_IdList_ItemIE_Extensions .nil))
/-- examples/tests/12-s1ap.rs:326-333 -/
def CSG_IdList : Ty := .sequenceOf (some 1) (some 256) false CSG_IdList_Item
/-- examples/tests/12-s1ap.rs:5492-5494 -/
def CSGMembershipInfoIE_Extensions_Entry : Ty := .sequence false 0 .nil
/-- examples/tests/12-s1ap.rs:5496-5503 -/
def CSGMembershipInfoIE_Extensions : Ty := .sequenceOf (some 1) (some 65535) false CSGMembershipInfoIE_Extensions_Entry
/-- examples/tests/12-s1ap.rs:582-584 -/
def CellAccessMode : Ty := .enumerated .u8 (some 0) (some 0) true
/-- examples/tests/12-s1ap.rs:356-358 -/
def CSGMembershipStatus : Ty := .enumerated .u8 (some 0) (some 1) false
/-- examples/tests/12-s1ap.rs:343-354 -/
def CSGMembershipInfo : Ty := .sequence true 3 (.required false CSGMembershipStatus (.required false CSG_Id (.optional 0 CellAccessMode (.optional 1 PLMNidentity (.optional 2 CSGMembershipInfoIE_Extensions .nil)))))
/-- examples/tests/12-s1ap.rs:1527-1534 -/
def EHRPD_Sector_ID : Ty := .octetstring (some 16) (some 16) false
/-- examples/tests/12-s1ap.rs:8260-8262 -/
def OCTET_STRING_24 : Ty := .octetstring none none false
/-- examples/tests/12-s1ap.rs:8256-8258 -/
def OCTET_STRING_23 : Ty := .octetstring none none false
/-- examples/tests/12-s1ap.rs:8252-8254 -/
def OCTET_STRING_22 : Ty := .octetstring none none false
/-- examples/tests/12-s1ap.rs:2340-2351 -/
def IRAT_Cell_ID : Ty := .choice 0 2 true (.cons 0 false OCTET_STRING_22 (.cons 1 false OCTET_STRING_23 (.cons 2 false OCTET_STRING_24 (.cons 0 true EHRPD_Sector_ID .nil))))
/-- examples/tests/12-s1ap.rs:400-402 -/
def CandidateCellList : Ty := .sequenceOf (some 1) (some 16) false IRAT_Cell_ID
/-- examples/tests/12-s1ap.rs:5539-5541 -/
def OCTET_STRING_6 : Ty := .octetstring none none false
/-- examples/tests/12-s1ap.rs:5535-5537 -/
def INTEGER_5 : Ty := .integer .u16 (some 0) (some 503) false
/-- examples/tests/12-s1ap.rs:404-409 -/
def CandidatePCI : Ty := .sequence true 0 (.required false INTEGER_5 (.required false OCTET_STRING_6 .nil))
/-- examples/tests/12-s1ap.rs:411-413 -/
def CandidatePCIList : Ty := .sequenceOf (some 1) (some 16) false CandidatePCI
/-- examples/tests/12-s1ap.rs:430-432 -/
def CauseMisc : Ty := .enumerated .u8 (some 0) (some 5) true
/-- examples/tests/12-s1ap.rs:452-454 -/
def CauseProtocol : Ty := .enumerated .u8 (some 0) (some 6) true
/-- examples/tests/12-s1ap.rs:442-444 -/
def CauseNas : Ty := .enumerated .u8 (some 0) (some 3) true
/-- examples/tests/12-s1ap.rs:507-509 -/
def CauseTransport : Ty := .enumerated .u8 (some 0) (some 1) true
/-- examples/tests/12-s1ap.rs:465-467 -/
def CauseRadioNetwork : Ty := .enumerated .u8 (some 0) (some 35) true
/-- examples/tests/12-s1ap.rs:415-428 -/
def Cause : Ty := .choice 0 4 true (.cons 0 false CauseRadioNetwork (.cons 1 false CauseTransport (.cons 2 false CauseNas (.cons 3 false CauseProtocol (.cons 4 false CauseMisc .nil)))))
/-- examples/tests/12-s1ap.rs:515-517 -/
def Cdma2000HORequiredIndication : Ty := .enumerated .u8 (some 0) (some 0) true
/-- examples/tests/12-s1ap.rs:522-524 -/
def Cdma2000HOStatus : Ty := .enumerated .u8 (some 0) (some 1) true
/-- examples/tests/12-s1ap.rs:530-532 -/
def Cdma2000OneXMEID : Ty := .octetstring none none false
/-- examples/tests/12-s1ap.rs:534-536 -/
def Cdma2000OneXMSI : Ty := .octetstring none none false
/-- examples/tests/12-s1ap.rs:538-540 -/
def Cdma2000OneXPilot : Ty := .octetstring none none false
/-- examples/tests/12-s1ap.rs:542-544 -/
def Cdma2000OneXRAND : Ty := .octetstring none none false
/-- examples/tests/12-s1ap.rs:5543-5545 -/
def Cdma2000OneXSRVCCInfoIE_Extensions_Entry : Ty := .sequence false 0 .nil
/-- examples/tests/12-s1ap.rs:5547-5554 -/
def Cdma2000OneXSRVCCInfoIE_Extensions : Ty := .sequenceOf (some 1) (some 65535) false Cdma2000OneXSRVCCInfoIE_Extensions_Entry
/-- examples/tests/12-s1ap.rs:546-554 -/
def Cdma2000OneXSRVCCInfo : Ty := .sequence true 1 (.required false Cdma2000OneXMEID (.required false Cdma2000OneXMSI (.required false Cdma2000OneXPilot (.optional 0 Cdma2000OneXSRVCCInfoIE_Extensions .nil))))
/-- examples/tests/12-s1ap.rs:556-558 -/
def Cdma2000PDU : Ty := .octetstring none none false
/-- examples/tests/12-s1ap.rs:560-562 -/
def Cdma2000RATType : Ty := .enumerated .u8 (some 0) (some 1) true
/-- examples/tests/12-s1ap.rs:568-570 -/
def Cdma2000SectorID : Ty := .octetstring none none false
/-- examples/tests/12-s1ap.rs:572-574 -/
def Cell_Size : Ty := .enumerated .u8 (some 0) (some 3) true
/-- examples/tests/12-s1ap.rs:589-591 -/
def CellActivationCause : Ty := .enumerated .u8 (some 0) (some 2) true
/-- examples/tests/12-s1ap.rs:5556-5558 -/
def INTEGER_7 : Ty := .integer .u8 (some 1) (some 60) false
/-- examples/tests/12-s1ap.rs:5683-5685 -/
def OCTET_STRING_10 : Ty := .octetstring none none false
/-- examples/tests/12-s1ap.rs:744-748 -/
def CellsToActivateList_Item : Ty := .sequence true 0 (.required false OCTET_STRING_10 .nil)
/-- examples/tests/12-s1ap.rs:735-742 -/
def CellsToActivateList : Ty := .sequenceOf (some 1) (some 256) false CellsToActivateList_Item
/-- examples/tests/12-s1ap.rs:598-604 -/
def CellActivationRequest : Ty := .sequence true 1 (.required false CellsToActivateList (.optional 0 INTEGER_7 .nil))
/-- examples/tests/12-s1ap.rs:606-610 -/
def CellActivationResponse : Ty := .sequence true 0 (.required false ActivatedCellsList .nil)
/-- examples/tests/12-s1ap.rs:684-686 -/
def CellLoadReportingCause : Ty := .enumerated .u8 (some 0) (some 2) true
/-- examples/tests/12-s1ap.rs:1536-1538 -/
def EHRPDCapacityValue : Ty := .integer .u8 (some 0) (some 100) false
/-- examples/tests/12-s1ap.rs:1554-1556 -/
def EHRPDSectorCapacityClassValue : Ty := .integer .u8 (some 1) (some 100) true
/-- examples/tests/12-s1ap.rs:1540-1545 -/
def EHRPDCompositeAvailableCapacity : Ty := .sequence true 0 (.required false EHRPDSectorCapacityClassValue (.required false EHRPDCapacityValue .nil))
/-- examples/tests/12-s1ap.rs:1558-1563 -/
def EHRPDSectorLoadReportingResponse : Ty := .sequence true 0 (.required false EHRPDCompositeAvailableCapacity (.required false EHRPDCompositeAvailableCapacity .nil))
/-- examples/tests/12-s1ap.rs:5631-5633 -/
def OCTET_STRING_9 : Ty := .octetstring none none false
/-- examples/tests/12-s1ap.rs:5627-5629 -/
def OCTET_STRING_8 : Ty := .octetstring none none false
/-- examples/tests/12-s1ap.rs:784-786 -/
def CompositeAvailableCapacityGroup : Ty := .octetstring none none false
/-- examples/tests/12-s1ap.rs:1768-1772 -/
def EUTRANcellLoadReportingResponse : Ty := .sequence true 0 (.required false CompositeAvailableCapacityGroup .nil)
/-- examples/tests/12-s1ap.rs:693-704 -/
def CellLoadReportingResponse : Ty := .choice 0 2 true (.cons 0 false EUTRANcellLoadReportingResponse (.cons 1 false OCTET_STRING_8 (.cons 2 false OCTET_STRING_9 (.cons 0 true EHRPDSectorLoadReportingResponse .nil))))
/-- examples/tests/12-s1ap.rs:3234-3236 -/
def NotifyFlag : Ty := .enumerated .u8 (some 0) (some 1) true
/-- examples/tests/12-s1ap.rs:9627-9629 -/
def OCTET_STRING_47 : Ty := .octetstring none none false
/-- examples/tests/12-s1ap.rs:3227-3232 -/
def NotificationCellList_Item : Ty := .sequence true 0 (.required false OCTET_STRING_47 (.required false NotifyFlag .nil))
/-- examples/tests/12-s1ap.rs:3218-3225 -/
def NotificationCellList : Ty := .sequenceOf (some 1) (some 256) false NotificationCellList_Item
/-- examples/tests/12-s1ap.rs:706-710 -/
def CellStateIndication : Ty := .sequence true 0 (.required false NotificationCellList .nil)
/-- examples/tests/12-s1ap.rs:712-714 -/
def CellStateIndicationCause : Ty := .enumerated .u8 (some 0) (some 2) true
/-- examples/tests/12-s1ap.rs:1656-1658 -/
def ENB_UE_S1AP_ID : Ty := .integer .u32 (some 0) (some 16777215) false
/-- examples/tests/12-s1ap.rs:4721-4723 -/
def TransportLayerAddress : Ty := .bitstring (some 1) (some 160) true
/-- examples/tests/12-s1ap.rs:3603-3605 -/
def PrivacyIndicator : Ty := .enumerated .u8 (some 0) (some 1) true
/-- examples/tests/12-s1ap.rs:2870-2872 -/
def MME_UE_S1AP_ID : Ty := .integer .u32 (some 0) (some 4294967295) false
/-- examples/tests/12-s1ap.rs:1485-1487 -/
def E_UTRAN_Trace_ID : Ty := .octetstring (some 8) (some 8) false
/-- examples/tests/12-s1ap.rs:5635-5650 -/
def CellTrafficTraceProtocolIEs_EntryValue : Ty := .openType (.cons 86 false E_UTRAN_Trace_ID (.cons 100 false EUTRAN_CGI (.cons 0 false MME_UE_S1AP_ID (.cons 166 false PrivacyIndicator (.cons 131 false TransportLayerAddress (.cons 8 false ENB_UE_S1AP_ID .nil))))))
/-- examples/tests/12-s1ap.rs:5652-5659 -/
def CellTrafficTraceProtocolIEs_Entry : Ty := .sequence false 0 (.required true ProtocolIE_ID (.required false Criticality (.required false CellTrafficTraceProtocolIEs_EntryValue .nil)))
/-- examples/tests/12-s1ap.rs:5661-5668 -/
def CellTrafficTraceProtocolIEs : Ty := .sequenceOf (some 0) (some 65535) false CellTrafficTraceProtocolIEs_Entry
/-- examples/tests/12-s1ap.rs:721-725 -/
def CellTrafficTrace : Ty := .sequence true 0 (.required false CellTrafficTraceProtocolIEs .nil)
/-- examples/tests/12-s1ap.rs:5670-5672 -/
def CellTypeIE_Extensions_Entry : Ty := .sequence false 0 .nil
/-- examples/tests/12-s1ap.rs:5674-5681 -/
def CellTypeIE_Extensions : Ty := .sequenceOf (some 1) (some 65535) false CellTypeIE_Extensions_Entry
/-- examples/tests/12-s1ap.rs:727-733 -/
def CellType : Ty := .sequence true 1 (.required false Cell_Size (.optional 0 CellTypeIE_Extensions .nil))
/-- examples/tests/12-s1ap.rs:788-790 -/
def ConcurrentWarningMessageIndicator : Ty := .enumerated .u8 (some 0) (some 0) false
/-- examples/tests/12-s1ap.rs:5717-5719 -/
def ConnectedengNBItemIE_Extensions_Entry : Ty := .sequence false 0 .nil
/-- examples/tests/12-s1ap.rs:5721-5728 -/
def ConnectedengNBItemIE_Extensions : Ty := .sequenceOf (some 1) (some 65535) false ConnectedengNBItemIE_Extensions_Entry
/-- examples/tests/12-s1ap.rs:3685-3687 -/
def RAT_Type : Ty := .enumerated .u8 (some 0) (some 0) true
/-- examples/tests/12-s1ap.rs:10895-10900 -/
def SupportedTAs_ItemIE_Extensions_EntryExtensionValue : Ty := .openType (.cons 232 false RAT_Type .nil)
/-- examples/tests/12-s1ap.rs:10902-10909 -/
def SupportedTAs_ItemIE_Extensions_Entry : Ty := .sequence false 0 (.required true ProtocolExtensionID (.required false Criticality (.required false SupportedTAs_ItemIE_Extensions_EntryExtensionValue .nil)))
/-- examples/tests/12-s1ap.rs:10911-10918 -/
def SupportedTAs_ItemIE_Extensions : Ty := .sequenceOf (some 1) (some 65535) false SupportedTAs_ItemIE_Extensions_Entry
/-- examples/tests/12-s1ap.rs:4392-4399 -/
def SupportedTAs_Item : Ty := .sequence true 1 (.required false TAC (.required false BPLMNs (.optional 0 SupportedTAs_ItemIE_Extensions .nil)))
/-- examples/tests/12-s1ap.rs:4383-4390 -/
def SupportedTAs : Ty := .sequenceOf (some 1) (some 256) false SupportedTAs_Item
/-- examples/tests/12-s1ap.rs:1839-1841 -/
def En_gNB_ID : Ty := .bitstring (some 22) (some 32) true
/-- examples/tests/12-s1ap.rs:795-802 -/
def ConnectedengNBItem : Ty := .sequence true 1 (.required false En_gNB_ID (.required false SupportedTAs (.optional 0 ConnectedengNBItemIE_Extensions .nil)))
/-- examples/tests/12-s1ap.rs:804-811 -/
def ConnectedengNBList : Ty := .sequenceOf (some 1) (some 256) false ConnectedengNBItem
/-- examples/tests/12-s1ap.rs:4970-4972 -/
def UERadioCapabilityID : Ty := .octetstring none none false
/-- examples/tests/12-s1ap.rs:4962-4964 -/
def UERadioCapability : Ty := .octetstring none none false
/-- examples/tests/12-s1ap.rs:3409-3411 -/
def Packet_LossRate : Ty := .integer .u16 (some 0) (some 1000) false
/-- examples/tests/12-s1ap.rs:6279-6286 -/
def E_RABLevelQoSParametersIE_Extensions_EntryExtensionValue : Ty := .openType (.cons 273 false Packet_LossRate (.cons 274 false Packet_LossRate .nil))
/-- examples/tests/12-s1ap.rs:6288-6295 -/
def E_RABLevelQoSParametersIE_Extensions_Entry : Ty := .sequence false 0 (.required true ProtocolExtensionID (.required false Criticality (.required false E_RABLevelQoSParametersIE_Extensions_EntryExtensionValue .nil)))
/-- examples/tests/12-s1ap.rs:6297-6306 -/
def E_RABLevelQoSParametersIE_Extensions : Ty := .sequenceOf (some 1) (some 65535) false E_RABLevelQoSParametersIE_Extensions_Entry
/-- examples/tests/12-s1ap.rs:1947-1954 -/
def ExtendedBitRate : Ty := .integer .u64 (some 10000000001) (some 4000000000000) true
/-- examples/tests/12-s1ap.rs:7688-7699 -/
def GBR_QosInformationIE_Extensions_EntryExtensionValue : Ty := .openType (.cons 257 false ExtendedBitRate (.cons 258 false ExtendedBitRate (.cons 255 false ExtendedBitRate (.cons 256 false ExtendedBitRate .nil))))
/-- examples/tests/12-s1ap.rs:7701-7708 -/
def GBR_QosInformationIE_Extensions_Entry : Ty := .sequence false 0 (.required true ProtocolExtensionID (.required false Criticality (.required false GBR_QosInformationIE_Extensions_EntryExtensionValue .nil)))
/-- examples/tests/12-s1ap.rs:7710-7717 -/
def GBR_QosInformationIE_Extensions : Ty := .sequenceOf (some 1) (some 65535) false GBR_QosInformationIE_Extensions_Entry
/-- examples/tests/12-s1ap.rs:2051-2060 -/
def GBR_QosInformation : Ty := .sequence true 1 (.required false BitRate (.required false BitRate (.required false BitRate (.required false BitRate (.optional 0 GBR_QosInformationIE_Extensions .nil)))))
/-- examples/tests/12-s1ap.rs:3673-3675 -/
def QCI : Ty := .integer .u8 (some 0) (some 255) false
/-- examples/tests/12-s1ap.rs:1138-1147 -/
def E_RABLevelQoSParameters : Ty := .sequence true 2 (.required false QCI (.required false AllocationAndRetentionPriority (.optional 0 GBR_QosInformation (.optional 1 E_RABLevelQoSParametersIE_Extensions .nil))))
/-- examples/tests/12-s1ap.rs:10831-10833 -/
def Subscription_Based_UE_DifferentiationInfoIE_Extensions_Entry : Ty := .sequence false 0 .nil
/-- examples/tests/12-s1ap.rs:10835-10844 -/
def Subscription_Based_UE_DifferentiationInfoIE_Extensions : Ty := .sequenceOf (some 1) (some 65535) false Subscription_Based_UE_DifferentiationInfoIE_Extensions_Entry
/-- examples/tests/12-s1ap.rs:10822-10824 -/
def ENUMERATED_64 : Ty := .enumerated .u8 (some 0) (some 2) true
/-- examples/tests/12-s1ap.rs:10813-10815 -/
def ENUMERATED_63 : Ty := .enumerated .u8 (some 0) (some 2) true
/-- examples/tests/12-s1ap.rs:10805-10807 -/
def ENUMERATED_62 : Ty := .enumerated .u8 (some 0) (some 1) true
/-- examples/tests/12-s1ap.rs:10587-10589 -/
def ScheduledCommunicationTimeIE_Extensions_Entry : Ty := .sequence false 0 .nil
/-- examples/tests/12-s1ap.rs:10591-10600 -/
def ScheduledCommunicationTimeIE_Extensions : Ty := .sequenceOf (some 1) (some 65535) false ScheduledCommunicationTimeIE_Extensions_Entry
/-- examples/tests/12-s1ap.rs:10583-10585 -/
def INTEGER_58 : Ty := .integer .u32 (some 0) (some 86399) true
/-- examples/tests/12-s1ap.rs:10579-10581 -/
def INTEGER_57 : Ty := .integer .u32 (some 0) (some 86399) true
/-- examples/tests/12-s1ap.rs:10575-10577 -/
def BIT_STRING_56 : Ty := .bitstring (some 7) (some 7) false
/-- examples/tests/12-s1ap.rs:4147-4158 -/
def ScheduledCommunicationTime : Ty := .sequence true 4 (.optional 0 BIT_STRING_56 (.optional 1 INTEGER_57 (.optional 2 INTEGER_58 (.optional 3 ScheduledCommunicationTimeIE_Extensions .nil))))
/-- examples/tests/12-s1ap.rs:10801-10803 -/
def INTEGER_61 : Ty := .integer .u16 (some 1) (some 3600) true
/-- examples/tests/12-s1ap.rs:10793-10795 -/
def ENUMERATED_60 : Ty := .enumerated .u8 (some 0) (some 1) true
/-- examples/tests/12-s1ap.rs:4355-4372 -/
def Subscription_Based_UE_DifferentiationInfo : Ty := .sequence true 7 (.optional 0 ENUMERATED_60 (.optional 1 INTEGER_61 (.optional 2 ScheduledCommunicationTime (.optional 3 ENUMERATED_62 (.optional 4 ENUMERATED_63 (.optional 5 ENUMERATED_64 (.optional 6 Subscription_Based_UE_DifferentiationInfoIE_Extensions .nil)))))))
/-- examples/tests/12-s1ap.rs:1855-1857 -/
def EnhancedCoverageRestricted : Ty := .enumerated .u8 (some 0) (some 0) true
/-- examples/tests/12-s1ap.rs:1847-1849 -/
def EndIndication : Ty := .enumerated .u8 (some 0) (some 1) true
/-- examples/tests/12-s1ap.rs:5886-5888 -/
def DL_CP_SecurityInformationIE_Extensions_Entry : Ty := .sequence false 0 .nil
/-- examples/tests/12-s1ap.rs:5890-5899 -/
def DL_CP_SecurityInformationIE_Extensions : Ty := .sequenceOf (some 1) (some 65535) false DL_CP_SecurityInformationIE_Extensions_Entry
/-- examples/tests/12-s1ap.rs:935-937 -/
def DL_NAS_MAC : Ty := .bitstring (some 16) (some 16) false
/-- examples/tests/12-s1ap.rs:920-926 -/
def DL_CP_SecurityInformation : Ty := .sequence true 1 (.required false DL_NAS_MAC (.optional 0 DL_CP_SecurityInformationIE_Extensions .nil))
/-- examples/tests/12-s1ap.rs:5730-5753 -/
def ConnectionEstablishmentIndicationProtocolIEs_EntryValue : Ty := .openType (.cons 271 false CE_ModeBRestricted (.cons 253 false DL_CP_SecurityInformation (.cons 280 false EndIndication (.cons 251 false EnhancedCoverageRestricted (.cons 0 false MME_UE_S1AP_ID (.cons 278 false Subscription_Based_UE_DifferentiationInfo (.cons 252 false E_RABLevelQoSParameters (.cons 74 false UERadioCapability (.cons 314 false UERadioCapabilityID (.cons 8 false ENB_UE_S1AP_ID .nil))))))))))
/-- examples/tests/12-s1ap.rs:5755-5762 -/
def ConnectionEstablishmentIndicationProtocolIEs_Entry : Ty := .sequence false 0 (.required true ProtocolIE_ID (.required false Criticality (.required false ConnectionEstablishmentIndicationProtocolIEs_EntryValue .nil)))
/-- examples/tests/12-s1ap.rs:5764-5773 -/
def ConnectionEstablishmentIndicationProtocolIEs : Ty := .sequenceOf (some 0) (some 65535) false ConnectionEstablishmentIndicationProtocolIEs_Entry
/-- examples/tests/12-s1ap.rs:813-817 -/
def ConnectionEstablishmentIndication : Ty := .sequence true 0 (.required false ConnectionEstablishmentIndicationProtocolIEs .nil)
/-- examples/tests/12-s1ap.rs:5775-5777 -/
def ContextatSourceIE_Extensions_Entry : Ty := .sequence false 0 .nil
/-- examples/tests/12-s1ap.rs:5779-5786 -/
def ContextatSourceIE_Extensions : Ty := .sequenceOf (some 1) (some 65535) false ContextatSourceIE_Extensions_Entry
/-- examples/tests/12-s1ap.rs:3681-3683 -/
def RAN_UE_NGAP_ID : Ty := .integer .u32 (some 0) (some 4294967295) false
/-- examples/tests/12-s1ap.rs:9556-9558 -/
def NG_eNBIE_Extensions_Entry : Ty := .sequence false 0 .nil
/-- examples/tests/12-s1ap.rs:9560-9567 -/
def NG_eNBIE_Extensions : Ty := .sequenceOf (some 1) (some 65535) false NG_eNBIE_Extensions_Entry
/-- examples/tests/12-s1ap.rs:7758-7760 -/
def Global_ENB_IDIE_Extensions_Entry : Ty := .sequence false 0 .nil
/-- examples/tests/12-s1ap.rs:7762-7769 -/
def Global_ENB_IDIE_Extensions : Ty := .sequenceOf (some 1) (some 65535) false Global_ENB_IDIE_Extensions_Entry
/-- examples/tests/12-s1ap.rs:7265-7267 -/
def BIT_STRING_20 : Ty := .bitstring (some 21) (some 21) false
/-- examples/tests/12-s1ap.rs:7261-7263 -/
def BIT_STRING_19 : Ty := .bitstring (some 18) (some 18) false
/-- examples/tests/12-s1ap.rs:7257-7259 -/
def BIT_STRING_18 : Ty := .bitstring (some 28) (some 28) false
/-- examples/tests/12-s1ap.rs:7253-7255 -/
def BIT_STRING_17 : Ty := .bitstring (some 20) (some 20) false
/-- examples/tests/12-s1ap.rs:1635-1646 -/
def ENB_ID : Ty := .choice 0 1 true (.cons 0 false BIT_STRING_17 (.cons 1 false BIT_STRING_18 (.cons 0 true BIT_STRING_19 (.cons 1 true BIT_STRING_20 .nil))))
/-- examples/tests/12-s1ap.rs:2129-2136 -/
def Global_ENB_ID : Ty := .sequence true 1 (.required false PLMNidentity (.required false ENB_ID (.optional 0 Global_ENB_IDIE_Extensions .nil)))
/-- examples/tests/12-s1ap.rs:3139-3145 -/
def NG_eNB : Ty := .sequence true 1 (.required false Global_ENB_ID (.optional 0 NG_eNBIE_Extensions .nil))
/-- examples/tests/12-s1ap.rs:7732-7734 -/
def GNBIE_Extensions_Entry : Ty := .sequence false 0 .nil
/-- examples/tests/12-s1ap.rs:7736-7743 -/
def GNBIE_Extensions : Ty := .sequenceOf (some 1) (some 65535) false GNBIE_Extensions_Entry
/-- examples/tests/12-s1ap.rs:7771-7773 -/
def Global_GNB_IDIE_Extensions_Entry : Ty := .sequence false 0 .nil
/-- examples/tests/12-s1ap.rs:7775-7782 -/
def Global_GNB_IDIE_Extensions : Ty := .sequenceOf (some 1) (some 65535) false Global_GNB_IDIE_Extensions_Entry
/-- examples/tests/12-s1ap.rs:2080-2082 -/
def GNB_ID : Ty := .bitstring (some 22) (some 32) false
/-- examples/tests/12-s1ap.rs:2084-2089 -/
def GNB_Identity : Ty := .choice 0 0 true (.cons 0 false GNB_ID .nil)
/-- examples/tests/12-s1ap.rs:2138-2145 -/
def Global_GNB_ID : Ty := .sequence true 1 (.required false PLMNidentity (.required false GNB_Identity (.optional 0 Global_GNB_IDIE_Extensions .nil)))
/-- examples/tests/12-s1ap.rs:2072-2078 -/
def GNB : Ty := .sequence true 1 (.required false Global_GNB_ID (.optional 0 GNBIE_Extensions .nil))
/-- examples/tests/12-s1ap.rs:2147-2154 -/
def Global_RAN_NODE_ID : Ty := .choice 0 1 true (.cons 0 false GNB (.cons 1 false NG_eNB .nil))
/-- examples/tests/12-s1ap.rs:819-826 -/
def ContextatSource : Ty := .sequence true 1 (.required false Global_RAN_NODE_ID (.required false RAN_UE_NGAP_ID (.optional 0 ContextatSourceIE_Extensions .nil)))
/-- examples/tests/12-s1ap.rs:828-830 -/
def Correlation_ID : Ty := .octetstring (some 4) (some 4) false
/-- examples/tests/12-s1ap.rs:832-834 -/
def Coverage_Level : Ty := .enumerated .u8 (some 0) (some 0) true
/-- examples/tests/12-s1ap.rs:5788-5790 -/
def CriticalityDiagnosticsIE_Extensions_Entry : Ty := .sequence false 0 .nil
/-- examples/tests/12-s1ap.rs:5792-5799 -/
def CriticalityDiagnosticsIE_Extensions : Ty := .sequenceOf (some 1) (some 65535) false CriticalityDiagnosticsIE_Extensions_Entry
/-- examples/tests/12-s1ap.rs:5801-5803 -/
def CriticalityDiagnostics_IE_ItemIE_Extensions_Entry : Ty := .sequence false 0 .nil
/-- examples/tests/12-s1ap.rs:5805-5814 -/
def CriticalityDiagnostics_IE_ItemIE_Extensions : Ty := .sequenceOf (some 1) (some 65535) false CriticalityDiagnostics_IE_ItemIE_Extensions_Entry
/-- examples/tests/12-s1ap.rs:4744-4746 -/
def TypeOfError : Ty := .enumerated .u8 (some 0) (some 1) true
/-- examples/tests/12-s1ap.rs:863-871 -/
def CriticalityDiagnostics_IE_Item : Ty := .sequence true 1 (.required false Criticality (.required false ProtocolIE_ID (.required false TypeOfError (.optional 0 CriticalityDiagnostics_IE_ItemIE_Extensions .nil))))
/-- examples/tests/12-s1ap.rs:873-880 -/
def CriticalityDiagnostics_IE_List : Ty := .sequenceOf (some 1) (some 256) false CriticalityDiagnostics_IE_Item
/-- examples/tests/12-s1ap.rs:4725-4727 -/
def TriggeringMessage : Ty := .enumerated .u8 (some 0) (some 2) false
/-- examples/tests/12-s1ap.rs:3661-3663 -/
def ProcedureCode : Ty := .integer .u8 (some 0) (some 255) false
/-- examples/tests/12-s1ap.rs:848-861 -/
def CriticalityDiagnostics : Ty := .sequence true 5 (.optional 0 ProcedureCode (.optional 1 TriggeringMessage (.optional 2 Criticality (.optional 3 CriticalityDiagnostics_IE_List (.optional 4 CriticalityDiagnosticsIE_Extensions .nil)))))
/-- examples/tests/12-s1ap.rs:5823-5825 -/
def DAPSRequestInfoIE_Extensions_Entry : Ty := .sequence false 0 .nil
/-- examples/tests/12-s1ap.rs:5827-5834 -/
def DAPSRequestInfoIE_Extensions : Ty := .sequenceOf (some 1) (some 65535) false DAPSRequestInfoIE_Extensions_Entry
/-- examples/tests/12-s1ap.rs:5816-5818 -/
def ENUMERATED_11 : Ty := .enumerated .u8 (some 0) (some 0) true
/-- examples/tests/12-s1ap.rs:882-888 -/
def DAPSRequestInfo : Ty := .sequence true 1 (.required false ENUMERATED_11 (.optional 0 DAPSRequestInfoIE_Extensions .nil))
/-- examples/tests/12-s1ap.rs:5844-5846 -/
def DAPSResponseInfoIE_Extensions_Entry : Ty := .sequence false 0 .nil
/-- examples/tests/12-s1ap.rs:5848-5855 -/
def DAPSResponseInfoIE_Extensions : Ty := .sequenceOf (some 1) (some 65535) false DAPSResponseInfoIE_Extensions_Entry
/-- examples/tests/12-s1ap.rs:5836-5838 -/
def ENUMERATED_12 : Ty := .enumerated .u8 (some 0) (some 1) true
/-- examples/tests/12-s1ap.rs:890-896 -/
def DAPSResponseInfo : Ty := .sequence true 1 (.required false ENUMERATED_12 (.optional 0 DAPSResponseInfoIE_Extensions .nil))
/-- examples/tests/12-s1ap.rs:5857-5859 -/
def DAPSResponseInfoItemIE_Extensions_Entry : Ty := .sequence false 0 .nil
/-- examples/tests/12-s1ap.rs:5861-5868 -/
def DAPSResponseInfoItemIE_Extensions : Ty := .sequenceOf (some 1) (some 65535) false DAPSResponseInfoItemIE_Extensions_Entry
/-- examples/tests/12-s1ap.rs:898-905 -/
def DAPSResponseInfoItem : Ty := .sequence true 1 (.required false E_RAB_ID (.required false DAPSResponseInfo (.optional 0 DAPSResponseInfoItemIE_Extensions .nil)))
/-- examples/tests/12-s1ap.rs:5870-5875 -/
def DAPSResponseInfoList_EntryValue : Ty := .openType (.cons 319 false DAPSResponseInfoItem .nil)
/-- examples/tests/12-s1ap.rs:5877-5884 -/
def DAPSResponseInfoList_Entry : Ty := .sequence false 0 (.required true ProtocolIE_ID (.required false Criticality (.required false DAPSResponseInfoList_EntryValue .nil)))
/-- examples/tests/12-s1ap.rs:907-914 -/
def DAPSResponseInfoList : Ty := .sequenceOf (some 1) (some 256) false DAPSResponseInfoList_Entry
/-- examples/tests/12-s1ap.rs:916-918 -/
def DCN_ID : Ty := .integer .u16 (some 0) (some 65535) false
/-- examples/tests/12-s1ap.rs:928-930 -/
def DL_Forwarding : Ty := .enumerated .u8 (some 0) (some 0) true
/-- examples/tests/12-s1ap.rs:950-952 -/
def DLNASPDUDeliveryAckRequest : Ty := .enumerated .u8 (some 0) (some 0) true
/-- examples/tests/12-s1ap.rs:957-959 -/
def Data_Forwarding_Not_Possible : Ty := .enumerated .u8 (some 0) (some 0) true
/-- examples/tests/12-s1ap.rs:964-966 -/
def DataCodingScheme : Ty := .bitstring (some 8) (some 8) false
/-- examples/tests/12-s1ap.rs:968-970 -/
def DataSize : Ty := .integer .u16 (some 1) (some 4095) true
/-- examples/tests/12-s1ap.rs:5901-5910 -/
def DeactivateTraceProtocolIEs_EntryValue : Ty := .openType (.cons 86 false E_UTRAN_Trace_ID (.cons 0 false MME_UE_S1AP_ID (.cons 8 false ENB_UE_S1AP_ID .nil)))
/-- examples/tests/12-s1ap.rs:5912-5919 -/
def DeactivateTraceProtocolIEs_Entry : Ty := .sequence false 0 (.required true ProtocolIE_ID (.required false Criticality (.required false DeactivateTraceProtocolIEs_EntryValue .nil)))
/-- examples/tests/12-s1ap.rs:5921-5928 -/
def DeactivateTraceProtocolIEs : Ty := .sequenceOf (some 0) (some 65535) false DeactivateTraceProtocolIEs_Entry
/-- examples/tests/12-s1ap.rs:972-976 -/
def DeactivateTrace : Ty := .sequence true 0 (.required false DeactivateTraceProtocolIEs .nil)
/-- examples/tests/12-s1ap.rs:978-980 -/
def Direct_Forwarding_Path_Availability : Ty := .enumerated .u8 (some 0) (some 0) true
/-- examples/tests/12-s1ap.rs:4858-4860 -/
def UECapabilityInfoRequest : Ty := .enumerated .u8 (some 0) (some 0) true
/-- examples/tests/12-s1ap.rs:4351-4353 -/
def SubscriberProfileIDforRFP : Ty := .integer .u16 (some 1) (some 256) false
/-- examples/tests/12-s1ap.rs:4140-4142 -/
def SRVCCOperationPossible : Ty := .enumerated .u8 (some 0) (some 0) true
/-- examples/tests/12-s1ap.rs:3563-3565 -/
def PendingDataIndication : Ty := .enumerated .u8 (some 0) (some 0) true
/-- examples/tests/12-s1ap.rs:9582-9584 -/
def NRUESecurityCapabilitiesIE_Extensions_Entry : Ty := .sequence false 0 .nil
/-- examples/tests/12-s1ap.rs:9586-9595 -/
def NRUESecurityCapabilitiesIE_Extensions : Ty := .sequenceOf (some 1) (some 65535) false NRUESecurityCapabilitiesIE_Extensions_Entry
/-- examples/tests/12-s1ap.rs:3192-3194 -/
def NRintegrityProtectionAlgorithms : Ty := .bitstring (some 16) (some 16) true
/-- examples/tests/12-s1ap.rs:3188-3190 -/
def NRencryptionAlgorithms : Ty := .bitstring (some 16) (some 16) true
/-- examples/tests/12-s1ap.rs:3160-3167 -/
def NRUESecurityCapabilities : Ty := .sequence true 1 (.required false NRencryptionAlgorithms (.required false NRintegrityProtectionAlgorithms (.optional 0 NRUESecurityCapabilitiesIE_Extensions .nil)))
/-- examples/tests/12-s1ap.rs:3033-3035 -/
def NAS_PDU : Ty := .octetstring none none false
/-- examples/tests/12-s1ap.rs:5043-5045 -/
def UnlicensedSpectrumRestriction : Ty := .enumerated .u8 (some 0) (some 0) true
/-- examples/tests/12-s1ap.rs:3203-3205 -/
def NRrestrictioninEPSasSecondaryRAT : Ty := .enumerated .u8 (some 0) (some 0) true
/-- examples/tests/12-s1ap.rs:3196-3198 -/
def NRrestrictionin5GS : Ty := .enumerated .u8 (some 0) (some 0) true
/-- examples/tests/12-s1ap.rs:8190-8203 -/
def HandoverRestrictionListIE_Extensions_EntryExtensionValue : Ty := .openType (.cons 282 false CNTypeRestrictions (.cons 290 false PLMNidentity (.cons 287 false NRrestrictionin5GS (.cons 261 false NRrestrictioninEPSasSecondaryRAT (.cons 270 false UnlicensedSpectrumRestriction .nil)))))
/-- examples/tests/12-s1ap.rs:8205-8212 -/
def HandoverRestrictionListIE_Extensions_Entry : Ty := .sequence false 0 (.required true ProtocolExtensionID (.required false Criticality (.required false HandoverRestrictionListIE_Extensions_EntryExtensionValue .nil)))
/-- examples/tests/12-s1ap.rs:8214-8223 -/
def HandoverRestrictionListIE_Extensions : Ty := .sequenceOf (some 1) (some 65535) false HandoverRestrictionListIE_Extensions_Entry
/-- examples/tests/12-s1ap.rs:1997-1999 -/
def ForbiddenInterRATs : Ty := .enumerated .u8 (some 0) (some 3) true
/-- examples/tests/12-s1ap.rs:7662-7664 -/
def ForbiddenLAs_ItemIE_Extensions_Entry : Ty := .sequence false 0 .nil
/-- examples/tests/12-s1ap.rs:7666-7673 -/
def ForbiddenLAs_ItemIE_Extensions : Ty := .sequenceOf (some 1) (some 65535) false ForbiddenLAs_ItemIE_Extensions_Entry
/-- examples/tests/12-s1ap.rs:2007-2014 -/
def ForbiddenLACs : Ty := .sequenceOf (some 1) (some 4096) false LAC
/-- examples/tests/12-s1ap.rs:2020-2027 -/
def ForbiddenLAs_Item : Ty := .sequence true 1 (.required false PLMNidentity (.required false ForbiddenLACs (.optional 0 ForbiddenLAs_ItemIE_Extensions .nil)))
/-- examples/tests/12-s1ap.rs:2016-2018 -/
def ForbiddenLAs : Ty := .sequenceOf (some 1) (some 16) false ForbiddenLAs_Item
/-- examples/tests/12-s1ap.rs:7675-7677 -/
def ForbiddenTAs_ItemIE_Extensions_Entry : Ty := .sequence false 0 .nil
/-- examples/tests/12-s1ap.rs:7679-7686 -/
def ForbiddenTAs_ItemIE_Extensions : Ty := .sequenceOf (some 1) (some 65535) false ForbiddenTAs_ItemIE_Extensions_Entry
/-- examples/tests/12-s1ap.rs:2029-2036 -/
def ForbiddenTACs : Ty := .sequenceOf (some 1) (some 4096) false TAC
/-- examples/tests/12-s1ap.rs:2042-2049 -/
def ForbiddenTAs_Item : Ty := .sequence true 1 (.required false PLMNidentity (.required false ForbiddenTACs (.optional 0 ForbiddenTAs_ItemIE_Extensions .nil)))
/-- examples/tests/12-s1ap.rs:2038-2040 -/
def ForbiddenTAs : Ty := .sequenceOf (some 1) (some 16) false ForbiddenTAs_Item
/-- examples/tests/12-s1ap.rs:1744-1746 -/
def EPLMNs : Ty := .sequenceOf (some 1) (some 15) false PLMNidentity
/-- examples/tests/12-s1ap.rs:2259-2273 -/
def HandoverRestrictionList : Ty := .sequence true 5 (.required false PLMNidentity (.optional 0 EPLMNs (.optional 1 ForbiddenTAs (.optional 2 ForbiddenLAs (.optional 3 ForbiddenInterRATs (.optional 4 HandoverRestrictionListIE_Extensions .nil))))))
/-- examples/tests/12-s1ap.rs:5930-5967 -/
def DownlinkNASTransportProtocolIEs_EntryValue : Ty := .openType (.cons 299 false AdditionalRRMPriorityIndex (.cons 271 false CE_ModeBRestricted (.cons 249 false DLNASPDUDeliveryAckRequest (.cons 280 false EndIndication (.cons 251 false EnhancedCoverageRestricted (.cons 41 false HandoverRestrictionList (.cons 0 false MME_UE_S1AP_ID (.cons 26 false NAS_PDU (.cons 269 false NRUESecurityCapabilities (.cons 283 false PendingDataIndication (.cons 124 false SRVCCOperationPossible (.cons 106 false SubscriberProfileIDforRFP (.cons 278 false Subscription_Based_UE_DifferentiationInfo (.cons 275 false UECapabilityInfoRequest (.cons 74 false UERadioCapability (.cons 314 false UERadioCapabilityID (.cons 8 false ENB_UE_S1AP_ID .nil)))))))))))))))))
/-- examples/tests/12-s1ap.rs:5969-5976 -/
def DownlinkNASTransportProtocolIEs_Entry : Ty := .sequence false 0 (.required true ProtocolIE_ID (.required false Criticality (.required false DownlinkNASTransportProtocolIEs_EntryValue .nil)))
/-- examples/tests/12-s1ap.rs:5978-5985 -/
def DownlinkNASTransportProtocolIEs : Ty := .sequenceOf (some 0) (some 65535) false DownlinkNASTransportProtocolIEs_Entry
/-- examples/tests/12-s1ap.rs:985-989 -/
def DownlinkNASTransport : Ty := .sequence true 0 (.required false DownlinkNASTransportProtocolIEs .nil)
/-- examples/tests/12-s1ap.rs:3966-3968 -/
def Routing_ID : Ty := .integer .u8 (some 0) (some 255) false
/-- examples/tests/12-s1ap.rs:2528-2530 -/
def LPPa_PDU : Ty := .octetstring none none false
/-- examples/tests/12-s1ap.rs:5987-5994 -/
def DownlinkNonUEAssociatedLPPaTransportProtocolIEs_EntryValue : Ty := .openType (.cons 147 false LPPa_PDU (.cons 148 false Routing_ID .nil))
/-- examples/tests/12-s1ap.rs:5996-6003 -/
def DownlinkNonUEAssociatedLPPaTransportProtocolIEs_Entry : Ty := .sequence false 0 (.required true ProtocolIE_ID (.required false Criticality (.required false DownlinkNonUEAssociatedLPPaTransportProtocolIEs_EntryValue .nil)))
/-- examples/tests/12-s1ap.rs:6005-6014 -/
def DownlinkNonUEAssociatedLPPaTransportProtocolIEs : Ty := .sequenceOf (some 0) (some 65535) false DownlinkNonUEAssociatedLPPaTransportProtocolIEs_Entry
/-- examples/tests/12-s1ap.rs:991-995 -/
def DownlinkNonUEAssociatedLPPaTransport : Ty := .sequence true 0 (.required false DownlinkNonUEAssociatedLPPaTransportProtocolIEs .nil)
/-- examples/tests/12-s1ap.rs:6115-6117 -/
def E_RABDataForwardingItemIE_Extensions_Entry : Ty := .sequence false 0 .nil
/-- examples/tests/12-s1ap.rs:6119-6128 -/
def E_RABDataForwardingItemIE_Extensions : Ty := .sequenceOf (some 1) (some 65535) false E_RABDataForwardingItemIE_Extensions_Entry
/-- examples/tests/12-s1ap.rs:2091-2093 -/
def GTP_TEID : Ty := .octetstring (some 4) (some 4) false
/-- examples/tests/12-s1ap.rs:1040-1054 -/
def E_RABDataForwardingItem : Ty := .sequence true 5 (.required false E_RAB_ID (.optional 0 TransportLayerAddress (.optional 1 GTP_TEID (.optional 2 TransportLayerAddress (.optional 3 GTP_TEID (.optional 4 E_RABDataForwardingItemIE_Extensions .nil))))))
/-- examples/tests/12-s1ap.rs:6823-6828 -/
def E_RABSubjecttoDataForwardingList_EntryValue : Ty := .openType (.cons 14 false E_RABDataForwardingItem .nil)
/-- examples/tests/12-s1ap.rs:6830-6837 -/
def E_RABSubjecttoDataForwardingList_Entry : Ty := .sequence false 0 (.required true ProtocolIE_ID (.required false Criticality (.required false E_RABSubjecttoDataForwardingList_EntryValue .nil)))
/-- examples/tests/12-s1ap.rs:1322-1329 -/
def E_RABSubjecttoDataForwardingList : Ty := .sequenceOf (some 1) (some 256) false E_RABSubjecttoDataForwardingList_Entry
/-- examples/tests/12-s1ap.rs:6016-6031 -/
def DownlinkS1cdma2000tunnellingProtocolIEs_EntryValue : Ty := .openType (.cons 12 false E_RABSubjecttoDataForwardingList (.cons 0 false MME_UE_S1AP_ID (.cons 83 false Cdma2000HOStatus (.cons 70 false Cdma2000PDU (.cons 71 false Cdma2000RATType (.cons 8 false ENB_UE_S1AP_ID .nil))))))
/-- examples/tests/12-s1ap.rs:6033-6040 -/
def DownlinkS1cdma2000tunnellingProtocolIEs_Entry : Ty := .sequence false 0 (.required true ProtocolIE_ID (.required false Criticality (.required false DownlinkS1cdma2000tunnellingProtocolIEs_EntryValue .nil)))
/-- examples/tests/12-s1ap.rs:6042-6051 -/
def DownlinkS1cdma2000tunnellingProtocolIEs : Ty := .sequenceOf (some 0) (some 65535) false DownlinkS1cdma2000tunnellingProtocolIEs_Entry
/-- examples/tests/12-s1ap.rs:997-1001 -/
def DownlinkS1cdma2000tunnelling : Ty := .sequence true 0 (.required false DownlinkS1cdma2000tunnellingProtocolIEs .nil)
/-- examples/tests/12-s1ap.rs:6053-6064 -/
def DownlinkUEAssociatedLPPaTransportProtocolIEs_EntryValue : Ty := .openType (.cons 147 false LPPa_PDU (.cons 0 false MME_UE_S1AP_ID (.cons 148 false Routing_ID (.cons 8 false ENB_UE_S1AP_ID .nil))))
/-- examples/tests/12-s1ap.rs:6066-6073 -/
def DownlinkUEAssociatedLPPaTransportProtocolIEs_Entry : Ty := .sequence false 0 (.required true ProtocolIE_ID (.required false Criticality (.required false DownlinkUEAssociatedLPPaTransportProtocolIEs_EntryValue .nil)))
/-- examples/tests/12-s1ap.rs:6075-6084 -/
def DownlinkUEAssociatedLPPaTransportProtocolIEs : Ty := .sequenceOf (some 0) (some 65535) false DownlinkUEAssociatedLPPaTransportProtocolIEs_Entry
/-- examples/tests/12-s1ap.rs:1003-1007 -/
def DownlinkUEAssociatedLPPaTransport : Ty := .sequence true 0 (.required false DownlinkUEAssociatedLPPaTransportProtocolIEs .nil)
/-- examples/tests/12-s1ap.rs:6086-6088 -/
def E_RABAdmittedItemIE_Extensions_Entry : Ty := .sequence false 0 .nil
/-- examples/tests/12-s1ap.rs:6090-6097 -/
def E_RABAdmittedItemIE_Extensions : Ty := .sequenceOf (some 1) (some 65535) false E_RABAdmittedItemIE_Extensions_Entry
/-- examples/tests/12-s1ap.rs:1013-1029 -/
def E_RABAdmittedItem : Ty := .sequence true 5 (.required false E_RAB_ID (.required false TransportLayerAddress (.required false GTP_TEID (.optional 0 TransportLayerAddress (.optional 1 GTP_TEID (.optional 2 TransportLayerAddress (.optional 3 GTP_TEID (.optional 4 E_RABAdmittedItemIE_Extensions .nil))))))))
/-- examples/tests/12-s1ap.rs:6099-6104 -/
def E_RABAdmittedList_EntryValue : Ty := .openType (.cons 20 false E_RABAdmittedItem .nil)
/-- examples/tests/12-s1ap.rs:6106-6113 -/
def E_RABAdmittedList_Entry : Ty := .sequence false 0 (.required true ProtocolIE_ID (.required false Criticality (.required false E_RABAdmittedList_EntryValue .nil)))
/-- examples/tests/12-s1ap.rs:1031-1038 -/
def E_RABAdmittedList : Ty := .sequenceOf (some 1) (some 256) false E_RABAdmittedList_Entry
/-- examples/tests/12-s1ap.rs:6130-6132 -/
def E_RABFailedToResumeItemResumeReqIE_Extensions_Entry : Ty := .sequence false 0 .nil
/-- examples/tests/12-s1ap.rs:6134-6143 -/
def E_RABFailedToResumeItemResumeReqIE_Extensions : Ty := .sequenceOf (some 1) (some 65535) false E_RABFailedToResumeItemResumeReqIE_Extensions_Entry
/-- examples/tests/12-s1ap.rs:1056-1063 -/
def E_RABFailedToResumeItemResumeReq : Ty := .sequence true 1 (.required false E_RAB_ID (.required false Cause (.optional 0 E_RABFailedToResumeItemResumeReqIE_Extensions .nil)))
/-- examples/tests/12-s1ap.rs:6145-6147 -/
def E_RABFailedToResumeItemResumeResIE_Extensions_Entry : Ty := .sequence false 0 .nil
/-- examples/tests/12-s1ap.rs:6149-6158 -/
def E_RABFailedToResumeItemResumeResIE_Extensions : Ty := .sequenceOf (some 1) (some 65535) false E_RABFailedToResumeItemResumeResIE_Extensions_Entry
/-- examples/tests/12-s1ap.rs:1065-1072 -/
def E_RABFailedToResumeItemResumeRes : Ty := .sequence true 1 (.required false E_RAB_ID (.required false Cause (.optional 0 E_RABFailedToResumeItemResumeResIE_Extensions .nil)))
/-- examples/tests/12-s1ap.rs:6160-6165 -/
def E_RABFailedToResumeListResumeReq_EntryValue : Ty := .openType (.cons 236 false E_RABFailedToResumeItemResumeReq .nil)
/-- examples/tests/12-s1ap.rs:6167-6174 -/
def E_RABFailedToResumeListResumeReq_Entry : Ty := .sequence false 0 (.required true ProtocolIE_ID (.required false Criticality (.required false E_RABFailedToResumeListResumeReq_EntryValue .nil)))
/-- examples/tests/12-s1ap.rs:1074-1081 -/
def E_RABFailedToResumeListResumeReq : Ty := .sequenceOf (some 1) (some 256) false E_RABFailedToResumeListResumeReq_Entry
/-- examples/tests/12-s1ap.rs:6176-6181 -/
def E_RABFailedToResumeListResumeRes_EntryValue : Ty := .openType (.cons 238 false E_RABFailedToResumeItemResumeRes .nil)
/-- examples/tests/12-s1ap.rs:6183-6190 -/
def E_RABFailedToResumeListResumeRes_Entry : Ty := .sequence false 0 (.required true ProtocolIE_ID (.required false Criticality (.required false E_RABFailedToResumeListResumeRes_EntryValue .nil)))
/-- examples/tests/12-s1ap.rs:1083-1090 -/
def E_RABFailedToResumeListResumeRes : Ty := .sequenceOf (some 1) (some 256) false E_RABFailedToResumeListResumeRes_Entry
/-- examples/tests/12-s1ap.rs:6192-6194 -/
def E_RABFailedToSetupItemHOReqAckIE_Extensions_Entry : Ty := .sequence false 0 .nil
/-- examples/tests/12-s1ap.rs:6196-6205 -/
def E_RABFailedToSetupItemHOReqAckIE_Extensions : Ty := .sequenceOf (some 1) (some 65535) false E_RABFailedToSetupItemHOReqAckIE_Extensions_Entry
/-- examples/tests/12-s1ap.rs:1092-1099 -/
def E_RABFailedToSetupItemHOReqAck : Ty := .sequence true 1 (.required false E_RAB_ID (.required false Cause (.optional 0 E_RABFailedToSetupItemHOReqAckIE_Extensions .nil)))
/-- examples/tests/12-s1ap.rs:6207-6212 -/
def E_RABFailedtoSetupListHOReqAck_EntryValue : Ty := .openType (.cons 21 false E_RABFailedToSetupItemHOReqAck .nil)
/-- examples/tests/12-s1ap.rs:6214-6221 -/
def E_RABFailedtoSetupListHOReqAck_Entry : Ty := .sequence false 0 (.required true ProtocolIE_ID (.required false Criticality (.required false E_RABFailedtoSetupListHOReqAck_EntryValue .nil)))
/-- examples/tests/12-s1ap.rs:1101-1108 -/
def E_RABFailedtoSetupListHOReqAck : Ty := .sequenceOf (some 1) (some 256) false E_RABFailedtoSetupListHOReqAck_Entry
/-- examples/tests/12-s1ap.rs:6239-6244 -/
def E_RABInformationListItemIE_Extensions_EntryExtensionValue : Ty := .openType (.cons 317 false DAPSRequestInfo .nil)
/-- examples/tests/12-s1ap.rs:6246-6253 -/
def E_RABInformationListItemIE_Extensions_Entry : Ty := .sequence false 0 (.required true ProtocolExtensionID (.required false Criticality (.required false E_RABInformationListItemIE_Extensions_EntryExtensionValue .nil)))
/-- examples/tests/12-s1ap.rs:6255-6264 -/
def E_RABInformationListItemIE_Extensions : Ty := .sequenceOf (some 1) (some 65535) false E_RABInformationListItemIE_Extensions_Entry
/-- examples/tests/12-s1ap.rs:1119-1127 -/
def E_RABInformationListItem : Ty := .sequence true 2 (.required false E_RAB_ID (.optional 0 DL_Forwarding (.optional 1 E_RABInformationListItemIE_Extensions .nil)))
/-- examples/tests/12-s1ap.rs:6223-6228 -/
def E_RABInformationList_EntryValue : Ty := .openType (.cons 78 false E_RABInformationListItem .nil)
/-- examples/tests/12-s1ap.rs:6230-6237 -/
def E_RABInformationList_Entry : Ty := .sequence false 0 (.required true ProtocolIE_ID (.required false Criticality (.required false E_RABInformationList_EntryValue .nil)))
/-- examples/tests/12-s1ap.rs:1110-1117 -/
def E_RABInformationList : Ty := .sequenceOf (some 1) (some 256) false E_RABInformationList_Entry
/-- examples/tests/12-s1ap.rs:6266-6268 -/
def E_RABItemIE_Extensions_Entry : Ty := .sequence false 0 .nil
/-- examples/tests/12-s1ap.rs:6270-6277 -/
def E_RABItemIE_Extensions : Ty := .sequenceOf (some 1) (some 65535) false E_RABItemIE_Extensions_Entry
/-- examples/tests/12-s1ap.rs:1129-1136 -/
def E_RABItem : Ty := .sequence true 1 (.required false E_RAB_ID (.required false Cause (.optional 0 E_RABItemIE_Extensions .nil)))
/-- examples/tests/12-s1ap.rs:6308-6313 -/
def E_RABList_EntryValue : Ty := .openType (.cons 35 false E_RABItem .nil)
/-- examples/tests/12-s1ap.rs:6315-6322 -/
def E_RABList_Entry : Ty := .sequence false 0 (.required true ProtocolIE_ID (.required false Criticality (.required false E_RABList_EntryValue .nil)))
/-- examples/tests/12-s1ap.rs:1149-1156 -/
def E_RABList : Ty := .sequenceOf (some 1) (some 256) false E_RABList_Entry
/-- examples/tests/12-s1ap.rs:6402-6404 -/
def E_RABModifyItemBearerModConfIE_Extensions_Entry : Ty := .sequence false 0 .nil
/-- examples/tests/12-s1ap.rs:6406-6415 -/
def E_RABModifyItemBearerModConfIE_Extensions : Ty := .sequenceOf (some 1) (some 65535) false E_RABModifyItemBearerModConfIE_Extensions_Entry
/-- examples/tests/12-s1ap.rs:1170-1176 -/
def E_RABModifyItemBearerModConf : Ty := .sequence true 1 (.required false E_RAB_ID (.optional 0 E_RABModifyItemBearerModConfIE_Extensions .nil))
/-- examples/tests/12-s1ap.rs:6432-6437 -/
def E_RABModifyListBearerModConf_EntryValue : Ty := .openType (.cons 204 false E_RABModifyItemBearerModConf .nil)
/-- examples/tests/12-s1ap.rs:6439-6446 -/
def E_RABModifyListBearerModConf_Entry : Ty := .sequence false 0 (.required true ProtocolIE_ID (.required false Criticality (.required false E_RABModifyListBearerModConf_EntryValue .nil)))
/-- examples/tests/12-s1ap.rs:1186-1193 -/
def E_RABModifyListBearerModConf : Ty := .sequenceOf (some 1) (some 256) false E_RABModifyListBearerModConf_Entry
/-- examples/tests/12-s1ap.rs:6324-6341 -/
def E_RABModificationConfirmProtocolIEs_EntryValue : Ty := .openType (.cons 146 false CSGMembershipStatus (.cons 58 false CriticalityDiagnostics (.cons 205 false E_RABList (.cons 203 false E_RABModifyListBearerModConf (.cons 210 false E_RABList (.cons 0 false MME_UE_S1AP_ID (.cons 8 false ENB_UE_S1AP_ID .nil)))))))
/-- examples/tests/12-s1ap.rs:6343-6350 -/
def E_RABModificationConfirmProtocolIEs_Entry : Ty := .sequence false 0 (.required true ProtocolIE_ID (.required false Criticality (.required false E_RABModificationConfirmProtocolIEs_EntryValue .nil)))
/-- examples/tests/12-s1ap.rs:6352-6359 -/
def E_RABModificationConfirmProtocolIEs : Ty := .sequenceOf (some 0) (some 65535) false E_RABModificationConfirmProtocolIEs_Entry
/-- examples/tests/12-s1ap.rs:1158-1162 -/
def E_RABModificationConfirm : Ty := .sequence true 0 (.required false E_RABModificationConfirmProtocolIEs .nil)
/-- examples/tests/12-s1ap.rs:9737-9739 -/
def PSCellInformationIE_Extensions_Entry : Ty := .sequence false 0 .nil
/-- examples/tests/12-s1ap.rs:9741-9748 -/
def PSCellInformationIE_Extensions : Ty := .sequenceOf (some 1) (some 65535) false PSCellInformationIE_Extensions_Entry
/-- examples/tests/12-s1ap.rs:9569-9571 -/
def NR_CGIIE_Extensions_Entry : Ty := .sequence false 0 .nil
/-- examples/tests/12-s1ap.rs:9573-9580 -/
def NR_CGIIE_Extensions : Ty := .sequenceOf (some 1) (some 65535) false NR_CGIIE_Extensions_Entry
/-- examples/tests/12-s1ap.rs:3156-3158 -/
def NRCellIdentity : Ty := .bitstring (some 36) (some 36) false
/-- examples/tests/12-s1ap.rs:3147-3154 -/
def NR_CGI : Ty := .sequence true 1 (.required false PLMNidentity (.required false NRCellIdentity (.optional 0 NR_CGIIE_Extensions .nil)))
/-- examples/tests/12-s1ap.rs:3380-3386 -/
def PSCellInformation : Ty := .sequence true 1 (.required false NR_CGI (.optional 0 PSCellInformationIE_Extensions .nil))
/-- examples/tests/12-s1ap.rs:12251-12256 -/
def UserLocationInformationIE_Extensions_EntryExtensionValue : Ty := .openType (.cons 288 false PSCellInformation .nil)
/-- examples/tests/12-s1ap.rs:12258-12265 -/
def UserLocationInformationIE_Extensions_Entry : Ty := .sequence false 0 (.required true ProtocolExtensionID (.required false Criticality (.required false UserLocationInformationIE_Extensions_EntryExtensionValue .nil)))
/-- examples/tests/12-s1ap.rs:12267-12276 -/
def UserLocationInformationIE_Extensions : Ty := .sequenceOf (some 1) (some 65535) false UserLocationInformationIE_Extensions_Entry
/-- examples/tests/12-s1ap.rs:5083-5090 -/
def UserLocationInformation : Ty := .sequence true 1 (.required false EUTRAN_CGI (.required false TAI (.optional 0 UserLocationInformationIE_Extensions .nil)))
/-- examples/tests/12-s1ap.rs:11244-11246 -/
def TunnelInformationIE_Extensions_Entry : Ty := .sequence false 0 .nil
/-- examples/tests/12-s1ap.rs:11248-11255 -/
def TunnelInformationIE_Extensions : Ty := .sequenceOf (some 1) (some 65535) false TunnelInformationIE_Extensions_Entry
/-- examples/tests/12-s1ap.rs:3570-3572 -/
def Port_Number : Ty := .octetstring (some 2) (some 2) false
/-- examples/tests/12-s1ap.rs:4734-4742 -/
def TunnelInformation : Ty := .sequence true 2 (.required false TransportLayerAddress (.optional 0 Port_Number (.optional 1 TunnelInformationIE_Extensions .nil)))
/-- examples/tests/12-s1ap.rs:10639-10641 -/
def SecondaryRATDataUsageReportItemIE_Extensions_Entry : Ty := .sequence false 0 .nil
/-- examples/tests/12-s1ap.rs:10643-10652 -/
def SecondaryRATDataUsageReportItemIE_Extensions : Ty := .sequenceOf (some 1) (some 65535) false SecondaryRATDataUsageReportItemIE_Extensions_Entry
/-- examples/tests/12-s1ap.rs:7136-7138 -/
def E_RABUsageReportItemIE_Extensions_Entry : Ty := .sequence false 0 .nil
/-- examples/tests/12-s1ap.rs:7140-7147 -/
def E_RABUsageReportItemIE_Extensions : Ty := .sequenceOf (some 1) (some 65535) false E_RABUsageReportItemIE_Extensions_Entry
/-- examples/tests/12-s1ap.rs:7132-7134 -/
def INTEGER_16 : Ty := .integer .u64 (some 0) (some 18446744073709551615) false
/-- examples/tests/12-s1ap.rs:7128-7130 -/
def INTEGER_15 : Ty := .integer .u64 (some 0) (some 18446744073709551615) false
/-- examples/tests/12-s1ap.rs:7124-7126 -/
def OCTET_STRING_14 : Ty := .octetstring (some 4) (some 4) false
/-- examples/tests/12-s1ap.rs:7120-7122 -/
def OCTET_STRING_13 : Ty := .octetstring (some 4) (some 4) false
/-- examples/tests/12-s1ap.rs:1470-1479 -/
def E_RABUsageReportItem : Ty := .sequence true 1 (.required false OCTET_STRING_13 (.required false OCTET_STRING_14 (.required false INTEGER_15 (.required false INTEGER_16 (.optional 0 E_RABUsageReportItemIE_Extensions .nil)))))
/-- examples/tests/12-s1ap.rs:7149-7154 -/
def E_RABUsageReportList_EntryValue : Ty := .openType (.cons 267 false E_RABUsageReportItem .nil)
/-- examples/tests/12-s1ap.rs:7156-7163 -/
def E_RABUsageReportList_Entry : Ty := .sequence false 0 (.required true ProtocolIE_ID (.required false Criticality (.required false E_RABUsageReportList_EntryValue .nil)))
/-- examples/tests/12-s1ap.rs:1481-1483 -/
def E_RABUsageReportList : Ty := .sequenceOf (some 1) (some 2) false E_RABUsageReportList_Entry
/-- examples/tests/12-s1ap.rs:4192-4194 -/
def SecondaryRATType : Ty := .enumerated .u8 (some 0) (some 0) true
/-- examples/tests/12-s1ap.rs:4166-4174 -/
def SecondaryRATDataUsageReportItem : Ty := .sequence true 1 (.required false E_RAB_ID (.required false SecondaryRATType (.required false E_RABUsageReportList (.optional 0 SecondaryRATDataUsageReportItemIE_Extensions .nil))))
/-- examples/tests/12-s1ap.rs:10654-10659 -/
def SecondaryRATDataUsageReportList_EntryValue : Ty := .openType (.cons 265 false SecondaryRATDataUsageReportItem .nil)
/-- examples/tests/12-s1ap.rs:10661-10668 -/
def SecondaryRATDataUsageReportList_Entry : Ty := .sequence false 0 (.required true ProtocolIE_ID (.required false Criticality (.required false SecondaryRATDataUsageReportList_EntryValue .nil)))
/-- examples/tests/12-s1ap.rs:4176-4183 -/
def SecondaryRATDataUsageReportList : Ty := .sequenceOf (some 1) (some 256) false SecondaryRATDataUsageReportList_Entry
/-- examples/tests/12-s1ap.rs:6839-6841 -/
def E_RABToBeModifiedItemBearerModIndIE_Extensions_Entry : Ty := .sequence false 0 .nil
/-- examples/tests/12-s1ap.rs:6843-6852 -/
def E_RABToBeModifiedItemBearerModIndIE_Extensions : Ty := .sequenceOf (some 1) (some 65535) false E_RABToBeModifiedItemBearerModIndIE_Extensions_Entry
/-- examples/tests/12-s1ap.rs:1331-1339 -/
def E_RABToBeModifiedItemBearerModInd : Ty := .sequence true 1 (.required false E_RAB_ID (.required false TransportLayerAddress (.required false GTP_TEID (.optional 0 E_RABToBeModifiedItemBearerModIndIE_Extensions .nil))))
/-- examples/tests/12-s1ap.rs:6881-6886 -/
def E_RABToBeModifiedListBearerModInd_EntryValue : Ty := .openType (.cons 200 false E_RABToBeModifiedItemBearerModInd .nil)
/-- examples/tests/12-s1ap.rs:6888-6895 -/
def E_RABToBeModifiedListBearerModInd_Entry : Ty := .sequence false 0 (.required true ProtocolIE_ID (.required false Criticality (.required false E_RABToBeModifiedListBearerModInd_EntryValue .nil)))
/-- examples/tests/12-s1ap.rs:1351-1358 -/
def E_RABToBeModifiedListBearerModInd : Ty := .sequenceOf (some 1) (some 256) false E_RABToBeModifiedListBearerModInd_Entry
/-- examples/tests/12-s1ap.rs:6532-6534 -/
def E_RABNotToBeModifiedItemBearerModIndIE_Extensions_Entry : Ty := .sequence false 0 .nil
/-- examples/tests/12-s1ap.rs:6536-6545 -/
def E_RABNotToBeModifiedItemBearerModIndIE_Extensions : Ty := .sequenceOf (some 1) (some 65535) false E_RABNotToBeModifiedItemBearerModIndIE_Extensions_Entry
/-- examples/tests/12-s1ap.rs:1216-1224 -/
def E_RABNotToBeModifiedItemBearerModInd : Ty := .sequence true 1 (.required false E_RAB_ID (.required false TransportLayerAddress (.required false GTP_TEID (.optional 0 E_RABNotToBeModifiedItemBearerModIndIE_Extensions .nil))))
/-- examples/tests/12-s1ap.rs:6547-6552 -/
def E_RABNotToBeModifiedListBearerModInd_EntryValue : Ty := .openType (.cons 202 false E_RABNotToBeModifiedItemBearerModInd .nil)
/-- examples/tests/12-s1ap.rs:6554-6561 -/
def E_RABNotToBeModifiedListBearerModInd_Entry : Ty := .sequence false 0 (.required true ProtocolIE_ID (.required false Criticality (.required false E_RABNotToBeModifiedListBearerModInd_EntryValue .nil)))
/-- examples/tests/12-s1ap.rs:1226-1235 -/
def E_RABNotToBeModifiedListBearerModInd : Ty := .sequenceOf (some 1) (some 256) false E_RABNotToBeModifiedListBearerModInd_Entry
/-- examples/tests/12-s1ap.rs:6361-6380 -/
def E_RABModificationIndicationProtocolIEs_EntryValue : Ty := .openType (.cons 226 false CSGMembershipInfo (.cons 201 false E_RABNotToBeModifiedListBearerModInd (.cons 199 false E_RABToBeModifiedListBearerModInd (.cons 0 false MME_UE_S1AP_ID (.cons 264 false SecondaryRATDataUsageReportList (.cons 176 false TunnelInformation (.cons 189 false UserLocationInformation (.cons 8 false ENB_UE_S1AP_ID .nil))))))))
/-- examples/tests/12-s1ap.rs:6382-6389 -/
def E_RABModificationIndicationProtocolIEs_Entry : Ty := .sequence false 0 (.required true ProtocolIE_ID (.required false Criticality (.required false E_RABModificationIndicationProtocolIEs_EntryValue .nil)))
/-- examples/tests/12-s1ap.rs:6391-6400 -/
def E_RABModificationIndicationProtocolIEs : Ty := .sequenceOf (some 0) (some 65535) false E_RABModificationIndicationProtocolIEs_Entry
/-- examples/tests/12-s1ap.rs:1164-1168 -/
def E_RABModificationIndication : Ty := .sequence true 0 (.required false E_RABModificationIndicationProtocolIEs .nil)
/-- examples/tests/12-s1ap.rs:6417-6419 -/
def E_RABModifyItemBearerModResIE_Extensions_Entry : Ty := .sequence false 0 .nil
/-- examples/tests/12-s1ap.rs:6421-6430 -/
def E_RABModifyItemBearerModResIE_Extensions : Ty := .sequenceOf (some 1) (some 65535) false E_RABModifyItemBearerModResIE_Extensions_Entry
/-- examples/tests/12-s1ap.rs:1178-1184 -/
def E_RABModifyItemBearerModRes : Ty := .sequence true 1 (.required false E_RAB_ID (.optional 0 E_RABModifyItemBearerModResIE_Extensions .nil))
/-- examples/tests/12-s1ap.rs:6448-6453 -/
def E_RABModifyListBearerModRes_EntryValue : Ty := .openType (.cons 37 false E_RABModifyItemBearerModRes .nil)
/-- examples/tests/12-s1ap.rs:6455-6462 -/
def E_RABModifyListBearerModRes_Entry : Ty := .sequence false 0 (.required true ProtocolIE_ID (.required false Criticality (.required false E_RABModifyListBearerModRes_EntryValue .nil)))
/-- examples/tests/12-s1ap.rs:1195-1202 -/
def E_RABModifyListBearerModRes : Ty := .sequenceOf (some 1) (some 256) false E_RABModifyListBearerModRes_Entry
/-- examples/tests/12-s1ap.rs:11317-11324 -/
def UEAggregateMaximumBitrateIE_Extensions_EntryExtensionValue : Ty := .openType (.cons 259 false ExtendedBitRate (.cons 260 false ExtendedBitRate .nil))
/-- examples/tests/12-s1ap.rs:11326-11333 -/
def UEAggregateMaximumBitrateIE_Extensions_Entry : Ty := .sequence false 0 (.required true ProtocolExtensionID (.required false Criticality (.required false UEAggregateMaximumBitrateIE_Extensions_EntryExtensionValue .nil)))
/-- examples/tests/12-s1ap.rs:11335-11344 -/
def UEAggregateMaximumBitrateIE_Extensions : Ty := .sequenceOf (some 1) (some 65535) false UEAggregateMaximumBitrateIE_Extensions_Entry
/-- examples/tests/12-s1ap.rs:4834-4841 -/
def UEAggregateMaximumBitrate : Ty := .sequence true 1 (.required false BitRate (.required false BitRate (.optional 0 UEAggregateMaximumBitrateIE_Extensions .nil)))
/-- examples/tests/12-s1ap.rs:4185-4187 -/
def SecondaryRATDataUsageRequest : Ty := .enumerated .u8 (some 0) (some 0) true
/-- examples/tests/12-s1ap.rs:4714-4719 -/
def TransportInformation : Ty := .sequence true 0 (.required false TransportLayerAddress (.required false GTP_TEID .nil))
/-- examples/tests/12-s1ap.rs:6854-6859 -/
def E_RABToBeModifiedItemBearerModReqIE_Extensions_EntryExtensionValue : Ty := .openType (.cons 185 false TransportInformation .nil)
/-- examples/tests/12-s1ap.rs:6861-6868 -/
def E_RABToBeModifiedItemBearerModReqIE_Extensions_Entry : Ty := .sequence false 0 (.required true ProtocolExtensionID (.required false Criticality (.required false E_RABToBeModifiedItemBearerModReqIE_Extensions_EntryExtensionValue .nil)))
/-- examples/tests/12-s1ap.rs:6870-6879 -/
def E_RABToBeModifiedItemBearerModReqIE_Extensions : Ty := .sequenceOf (some 1) (some 65535) false E_RABToBeModifiedItemBearerModReqIE_Extensions_Entry
/-- examples/tests/12-s1ap.rs:1341-1349 -/
def E_RABToBeModifiedItemBearerModReq : Ty := .sequence true 1 (.required false E_RAB_ID (.required false E_RABLevelQoSParameters (.required false NAS_PDU (.optional 0 E_RABToBeModifiedItemBearerModReqIE_Extensions .nil))))
/-- examples/tests/12-s1ap.rs:6897-6902 -/
def E_RABToBeModifiedListBearerModReq_EntryValue : Ty := .openType (.cons 36 false E_RABToBeModifiedItemBearerModReq .nil)
/-- examples/tests/12-s1ap.rs:6904-6911 -/
def E_RABToBeModifiedListBearerModReq_Entry : Ty := .sequence false 0 (.required true ProtocolIE_ID (.required false Criticality (.required false E_RABToBeModifiedListBearerModReq_EntryValue .nil)))
/-- examples/tests/12-s1ap.rs:1360-1367 -/
def E_RABToBeModifiedListBearerModReq : Ty := .sequenceOf (some 1) (some 256) false E_RABToBeModifiedListBearerModReq_Entry
/-- examples/tests/12-s1ap.rs:6464-6477 -/
def E_RABModifyRequestProtocolIEs_EntryValue : Ty := .openType (.cons 30 false E_RABToBeModifiedListBearerModReq (.cons 0 false MME_UE_S1AP_ID (.cons 268 false SecondaryRATDataUsageRequest (.cons 8 false ENB_UE_S1AP_ID (.cons 66 false UEAggregateMaximumBitrate .nil)))))
/-- examples/tests/12-s1ap.rs:6479-6486 -/
def E_RABModifyRequestProtocolIEs_Entry : Ty := .sequence false 0 (.required true ProtocolIE_ID (.required false Criticality (.required false E_RABModifyRequestProtocolIEs_EntryValue .nil)))
/-- examples/tests/12-s1ap.rs:6488-6495 -/
def E_RABModifyRequestProtocolIEs : Ty := .sequenceOf (some 0) (some 65535) false E_RABModifyRequestProtocolIEs_Entry
/-- examples/tests/12-s1ap.rs:1204-1208 -/
def E_RABModifyRequest : Ty := .sequence true 0 (.required false E_RABModifyRequestProtocolIEs .nil)
/-- examples/tests/12-s1ap.rs:6497-6512 -/
def E_RABModifyResponseProtocolIEs_EntryValue : Ty := .openType (.cons 58 false CriticalityDiagnostics (.cons 32 false E_RABList (.cons 31 false E_RABModifyListBearerModRes (.cons 0 false MME_UE_S1AP_ID (.cons 264 false SecondaryRATDataUsageReportList (.cons 8 false ENB_UE_S1AP_ID .nil))))))
/-- examples/tests/12-s1ap.rs:6514-6521 -/
def E_RABModifyResponseProtocolIEs_Entry : Ty := .sequence false 0 (.required true ProtocolIE_ID (.required false Criticality (.required false E_RABModifyResponseProtocolIEs_EntryValue .nil)))
/-- examples/tests/12-s1ap.rs:6523-6530 -/
def E_RABModifyResponseProtocolIEs : Ty := .sequenceOf (some 0) (some 65535) false E_RABModifyResponseProtocolIEs_Entry
/-- examples/tests/12-s1ap.rs:1210-1214 -/
def E_RABModifyResponse : Ty := .sequence true 0 (.required false E_RABModifyResponseProtocolIEs .nil)
/-- examples/tests/12-s1ap.rs:6563-6576 -/
def E_RABReleaseCommandProtocolIEs_EntryValue : Ty := .openType (.cons 33 false E_RABList (.cons 0 false MME_UE_S1AP_ID (.cons 26 false NAS_PDU (.cons 8 false ENB_UE_S1AP_ID (.cons 66 false UEAggregateMaximumBitrate .nil)))))
/-- examples/tests/12-s1ap.rs:6578-6585 -/
def E_RABReleaseCommandProtocolIEs_Entry : Ty := .sequence false 0 (.required true ProtocolIE_ID (.required false Criticality (.required false E_RABReleaseCommandProtocolIEs_EntryValue .nil)))
/-- examples/tests/12-s1ap.rs:6587-6594 -/
def E_RABReleaseCommandProtocolIEs : Ty := .sequenceOf (some 0) (some 65535) false E_RABReleaseCommandProtocolIEs_Entry
/-- examples/tests/12-s1ap.rs:1237-1241 -/
def E_RABReleaseCommand : Ty := .sequence true 0 (.required false E_RABReleaseCommandProtocolIEs .nil)
/-- examples/tests/12-s1ap.rs:6596-6609 -/
def E_RABReleaseIndicationProtocolIEs_EntryValue : Ty := .openType (.cons 110 false E_RABList (.cons 0 false MME_UE_S1AP_ID (.cons 264 false SecondaryRATDataUsageReportList (.cons 189 false UserLocationInformation (.cons 8 false ENB_UE_S1AP_ID .nil)))))
/-- examples/tests/12-s1ap.rs:6611-6618 -/
def E_RABReleaseIndicationProtocolIEs_Entry : Ty := .sequence false 0 (.required true ProtocolIE_ID (.required false Criticality (.required false E_RABReleaseIndicationProtocolIEs_EntryValue .nil)))
/-- examples/tests/12-s1ap.rs:6620-6627 -/
def E_RABReleaseIndicationProtocolIEs : Ty := .sequenceOf (some 0) (some 65535) false E_RABReleaseIndicationProtocolIEs_Entry
/-- examples/tests/12-s1ap.rs:1243-1247 -/
def E_RABReleaseIndication : Ty := .sequence true 0 (.required false E_RABReleaseIndicationProtocolIEs .nil)
/-- examples/tests/12-s1ap.rs:6629-6631 -/
def E_RABReleaseItemBearerRelCompIE_Extensions_Entry : Ty := .sequence false 0 .nil
/-- examples/tests/12-s1ap.rs:6633-6642 -/
def E_RABReleaseItemBearerRelCompIE_Extensions : Ty := .sequenceOf (some 1) (some 65535) false E_RABReleaseItemBearerRelCompIE_Extensions_Entry
/-- examples/tests/12-s1ap.rs:1249-1255 -/
def E_RABReleaseItemBearerRelComp : Ty := .sequence true 1 (.required false E_RAB_ID (.optional 0 E_RABReleaseItemBearerRelCompIE_Extensions .nil))
/-- examples/tests/12-s1ap.rs:6644-6649 -/
def E_RABReleaseListBearerRelComp_EntryValue : Ty := .openType (.cons 15 false E_RABReleaseItemBearerRelComp .nil)
/-- examples/tests/12-s1ap.rs:6651-6658 -/
def E_RABReleaseListBearerRelComp_Entry : Ty := .sequence false 0 (.required true ProtocolIE_ID (.required false Criticality (.required false E_RABReleaseListBearerRelComp_EntryValue .nil)))
/-- examples/tests/12-s1ap.rs:1257-1264 -/
def E_RABReleaseListBearerRelComp : Ty := .sequenceOf (some 1) (some 256) false E_RABReleaseListBearerRelComp_Entry
/-- examples/tests/12-s1ap.rs:6660-6677 -/
def E_RABReleaseResponseProtocolIEs_EntryValue : Ty := .openType (.cons 58 false CriticalityDiagnostics (.cons 34 false E_RABList (.cons 69 false E_RABReleaseListBearerRelComp (.cons 0 false MME_UE_S1AP_ID (.cons 264 false SecondaryRATDataUsageReportList (.cons 189 false UserLocationInformation (.cons 8 false ENB_UE_S1AP_ID .nil)))))))
/-- examples/tests/12-s1ap.rs:6679-6686 -/
def E_RABReleaseResponseProtocolIEs_Entry : Ty := .sequence false 0 (.required true ProtocolIE_ID (.required false Criticality (.required false E_RABReleaseResponseProtocolIEs_EntryValue .nil)))
/-- examples/tests/12-s1ap.rs:6688-6695 -/
def E_RABReleaseResponseProtocolIEs : Ty := .sequenceOf (some 0) (some 65535) false E_RABReleaseResponseProtocolIEs_Entry
/-- examples/tests/12-s1ap.rs:1266-1270 -/
def E_RABReleaseResponse : Ty := .sequence true 0 (.required false E_RABReleaseResponseProtocolIEs .nil)
/-- examples/tests/12-s1ap.rs:6697-6699 -/
def E_RABSetupItemBearerSUResIE_Extensions_Entry : Ty := .sequence false 0 .nil
/-- examples/tests/12-s1ap.rs:6701-6710 -/
def E_RABSetupItemBearerSUResIE_Extensions : Ty := .sequenceOf (some 1) (some 65535) false E_RABSetupItemBearerSUResIE_Extensions_Entry
/-- examples/tests/12-s1ap.rs:1272-1280 -/
def E_RABSetupItemBearerSURes : Ty := .sequence true 1 (.required false E_RAB_ID (.required false TransportLayerAddress (.required false GTP_TEID (.optional 0 E_RABSetupItemBearerSUResIE_Extensions .nil))))
/-- examples/tests/12-s1ap.rs:6712-6714 -/
def E_RABSetupItemCtxtSUResIE_Extensions_Entry : Ty := .sequence false 0 .nil
/-- examples/tests/12-s1ap.rs:6716-6725 -/
def E_RABSetupItemCtxtSUResIE_Extensions : Ty := .sequenceOf (some 1) (some 65535) false E_RABSetupItemCtxtSUResIE_Extensions_Entry
/-- examples/tests/12-s1ap.rs:1282-1290 -/
def E_RABSetupItemCtxtSURes : Ty := .sequence true 1 (.required false E_RAB_ID (.required false TransportLayerAddress (.required false GTP_TEID (.optional 0 E_RABSetupItemCtxtSUResIE_Extensions .nil))))
/-- examples/tests/12-s1ap.rs:6727-6732 -/
def E_RABSetupListBearerSURes_EntryValue : Ty := .openType (.cons 39 false E_RABSetupItemBearerSURes .nil)
/-- examples/tests/12-s1ap.rs:6734-6741 -/
def E_RABSetupListBearerSURes_Entry : Ty := .sequence false 0 (.required true ProtocolIE_ID (.required false Criticality (.required false E_RABSetupListBearerSURes_EntryValue .nil)))
/-- examples/tests/12-s1ap.rs:1292-1299 -/
def E_RABSetupListBearerSURes : Ty := .sequenceOf (some 1) (some 256) false E_RABSetupListBearerSURes_Entry
/-- examples/tests/12-s1ap.rs:6743-6748 -/
def E_RABSetupListCtxtSURes_EntryValue : Ty := .openType (.cons 50 false E_RABSetupItemCtxtSURes .nil)
/-- examples/tests/12-s1ap.rs:6750-6757 -/
def E_RABSetupListCtxtSURes_Entry : Ty := .sequence false 0 (.required true ProtocolIE_ID (.required false Criticality (.required false E_RABSetupListCtxtSURes_EntryValue .nil)))
/-- examples/tests/12-s1ap.rs:1301-1308 -/
def E_RABSetupListCtxtSURes : Ty := .sequenceOf (some 1) (some 256) false E_RABSetupListCtxtSURes_Entry
/-- examples/tests/12-s1ap.rs:1868-1870 -/
def Ethernet_Type : Ty := .enumerated .u8 (some 0) (some 0) true
/-- examples/tests/12-s1ap.rs:6913-6924 -/
def E_RABToBeSetupItemBearerSUReqIE_Extensions_EntryExtensionValue : Ty := .openType (.cons 233 false BearerType (.cons 156 false Correlation_ID (.cons 305 false Ethernet_Type (.cons 183 false Correlation_ID .nil))))
/-- examples/tests/12-s1ap.rs:6926-6933 -/
def E_RABToBeSetupItemBearerSUReqIE_Extensions_Entry : Ty := .sequence false 0 (.required true ProtocolExtensionID (.required false Criticality (.required false E_RABToBeSetupItemBearerSUReqIE_Extensions_EntryExtensionValue .nil)))
/-- examples/tests/12-s1ap.rs:6935-6944 -/
def E_RABToBeSetupItemBearerSUReqIE_Extensions : Ty := .sequenceOf (some 1) (some 65535) false E_RABToBeSetupItemBearerSUReqIE_Extensions_Entry
/-- examples/tests/12-s1ap.rs:1369-1379 -/
def E_RABToBeSetupItemBearerSUReq : Ty := .sequence true 1 (.required false E_RAB_ID (.required false E_RABLevelQoSParameters (.required false TransportLayerAddress (.required false GTP_TEID (.required false NAS_PDU (.optional 0 E_RABToBeSetupItemBearerSUReqIE_Extensions .nil))))))
/-- examples/tests/12-s1ap.rs:7010-7015 -/
def E_RABToBeSetupListBearerSUReq_EntryValue : Ty := .openType (.cons 17 false E_RABToBeSetupItemBearerSUReq .nil)
/-- examples/tests/12-s1ap.rs:7017-7024 -/
def E_RABToBeSetupListBearerSUReq_Entry : Ty := .sequence false 0 (.required true ProtocolIE_ID (.required false Criticality (.required false E_RABToBeSetupListBearerSUReq_EntryValue .nil)))
/-- examples/tests/12-s1ap.rs:1405-1412 -/
def E_RABToBeSetupListBearerSUReq : Ty := .sequenceOf (some 1) (some 256) false E_RABToBeSetupListBearerSUReq_Entry
/-- examples/tests/12-s1ap.rs:6759-6770 -/
def E_RABSetupRequestProtocolIEs_EntryValue : Ty := .openType (.cons 16 false E_RABToBeSetupListBearerSUReq (.cons 0 false MME_UE_S1AP_ID (.cons 8 false ENB_UE_S1AP_ID (.cons 66 false UEAggregateMaximumBitrate .nil))))
/-- examples/tests/12-s1ap.rs:6772-6779 -/
def E_RABSetupRequestProtocolIEs_Entry : Ty := .sequence false 0 (.required true ProtocolIE_ID (.required false Criticality (.required false E_RABSetupRequestProtocolIEs_EntryValue .nil)))
/-- examples/tests/12-s1ap.rs:6781-6788 -/
def E_RABSetupRequestProtocolIEs : Ty := .sequenceOf (some 0) (some 65535) false E_RABSetupRequestProtocolIEs_Entry
/-- examples/tests/12-s1ap.rs:1310-1314 -/
def E_RABSetupRequest : Ty := .sequence true 0 (.required false E_RABSetupRequestProtocolIEs .nil)
/-- examples/tests/12-s1ap.rs:6790-6803 -/
def E_RABSetupResponseProtocolIEs_EntryValue : Ty := .openType (.cons 58 false CriticalityDiagnostics (.cons 29 false E_RABList (.cons 28 false E_RABSetupListBearerSURes (.cons 0 false MME_UE_S1AP_ID (.cons 8 false ENB_UE_S1AP_ID .nil)))))
/-- examples/tests/12-s1ap.rs:6805-6812 -/
def E_RABSetupResponseProtocolIEs_Entry : Ty := .sequence false 0 (.required true ProtocolIE_ID (.required false Criticality (.required false E_RABSetupResponseProtocolIEs_EntryValue .nil)))
/-- examples/tests/12-s1ap.rs:6814-6821 -/
def E_RABSetupResponseProtocolIEs : Ty := .sequenceOf (some 0) (some 65535) false E_RABSetupResponseProtocolIEs_Entry
/-- examples/tests/12-s1ap.rs:1316-1320 -/
def E_RABSetupResponse : Ty := .sequence true 0 (.required false E_RABSetupResponseProtocolIEs .nil)
/-- examples/tests/12-s1ap.rs:6946-6957 -/
def E_RABToBeSetupItemCtxtSUReqIE_Extensions_EntryExtensionValue : Ty := .openType (.cons 233 false BearerType (.cons 156 false Correlation_ID (.cons 305 false Ethernet_Type (.cons 183 false Correlation_ID .nil))))
/-- examples/tests/12-s1ap.rs:6959-6966 -/
def E_RABToBeSetupItemCtxtSUReqIE_Extensions_Entry : Ty := .sequence false 0 (.required true ProtocolExtensionID (.required false Criticality (.required false E_RABToBeSetupItemCtxtSUReqIE_Extensions_EntryExtensionValue .nil)))
/-- examples/tests/12-s1ap.rs:6968-6977 -/
def E_RABToBeSetupItemCtxtSUReqIE_Extensions : Ty := .sequenceOf (some 1) (some 65535) false E_RABToBeSetupItemCtxtSUReqIE_Extensions_Entry
/-- examples/tests/12-s1ap.rs:1381-1392 -/
def E_RABToBeSetupItemCtxtSUReq : Ty := .sequence true 2 (.required false E_RAB_ID (.required false E_RABLevelQoSParameters (.required false TransportLayerAddress (.required false GTP_TEID (.optional 0 NAS_PDU (.optional 1 E_RABToBeSetupItemCtxtSUReqIE_Extensions .nil))))))
/-- examples/tests/12-s1ap.rs:6979-6988 -/
def E_RABToBeSetupItemHOReqIE_Extensions_EntryExtensionValue : Ty := .openType (.cons 233 false BearerType (.cons 143 false Data_Forwarding_Not_Possible (.cons 305 false Ethernet_Type .nil)))
/-- examples/tests/12-s1ap.rs:6990-6997 -/
def E_RABToBeSetupItemHOReqIE_Extensions_Entry : Ty := .sequence false 0 (.required true ProtocolExtensionID (.required false Criticality (.required false E_RABToBeSetupItemHOReqIE_Extensions_EntryExtensionValue .nil)))
/-- examples/tests/12-s1ap.rs:6999-7008 -/
def E_RABToBeSetupItemHOReqIE_Extensions : Ty := .sequenceOf (some 1) (some 65535) false E_RABToBeSetupItemHOReqIE_Extensions_Entry
/-- examples/tests/12-s1ap.rs:1394-1403 -/
def E_RABToBeSetupItemHOReq : Ty := .sequence true 1 (.required false E_RAB_ID (.required false TransportLayerAddress (.required false GTP_TEID (.required false E_RABLevelQoSParameters (.optional 0 E_RABToBeSetupItemHOReqIE_Extensions .nil)))))
/-- examples/tests/12-s1ap.rs:7026-7031 -/
def E_RABToBeSetupListCtxtSUReq_EntryValue : Ty := .openType (.cons 52 false E_RABToBeSetupItemCtxtSUReq .nil)
/-- examples/tests/12-s1ap.rs:7033-7040 -/
def E_RABToBeSetupListCtxtSUReq_Entry : Ty := .sequence false 0 (.required true ProtocolIE_ID (.required false Criticality (.required false E_RABToBeSetupListCtxtSUReq_EntryValue .nil)))
/-- examples/tests/12-s1ap.rs:1414-1421 -/
def E_RABToBeSetupListCtxtSUReq : Ty := .sequenceOf (some 1) (some 256) false E_RABToBeSetupListCtxtSUReq_Entry
/-- examples/tests/12-s1ap.rs:7042-7047 -/
def E_RABToBeSetupListHOReq_EntryValue : Ty := .openType (.cons 27 false E_RABToBeSetupItemHOReq .nil)
/-- examples/tests/12-s1ap.rs:7049-7056 -/
def E_RABToBeSetupListHOReq_Entry : Ty := .sequence false 0 (.required true ProtocolIE_ID (.required false Criticality (.required false E_RABToBeSetupListHOReq_EntryValue .nil)))
/-- examples/tests/12-s1ap.rs:1423-1430 -/
def E_RABToBeSetupListHOReq : Ty := .sequenceOf (some 1) (some 256) false E_RABToBeSetupListHOReq_Entry
/-- examples/tests/12-s1ap.rs:7058-7060 -/
def E_RABToBeSwitchedDLItemIE_Extensions_Entry : Ty := .sequence false 0 .nil
/-- examples/tests/12-s1ap.rs:7062-7071 -/
def E_RABToBeSwitchedDLItemIE_Extensions : Ty := .sequenceOf (some 1) (some 65535) false E_RABToBeSwitchedDLItemIE_Extensions_Entry
/-- examples/tests/12-s1ap.rs:1432-1440 -/
def E_RABToBeSwitchedDLItem : Ty := .sequence true 1 (.required false E_RAB_ID (.required false TransportLayerAddress (.required false GTP_TEID (.optional 0 E_RABToBeSwitchedDLItemIE_Extensions .nil))))
/-- examples/tests/12-s1ap.rs:7073-7078 -/
def E_RABToBeSwitchedDLList_EntryValue : Ty := .openType (.cons 23 false E_RABToBeSwitchedDLItem .nil)
/-- examples/tests/12-s1ap.rs:7080-7087 -/
def E_RABToBeSwitchedDLList_Entry : Ty := .sequence false 0 (.required true ProtocolIE_ID (.required false Criticality (.required false E_RABToBeSwitchedDLList_EntryValue .nil)))
/-- examples/tests/12-s1ap.rs:1442-1449 -/
def E_RABToBeSwitchedDLList : Ty := .sequenceOf (some 1) (some 256) false E_RABToBeSwitchedDLList_Entry
/-- examples/tests/12-s1ap.rs:7089-7091 -/
def E_RABToBeSwitchedULItemIE_Extensions_Entry : Ty := .sequence false 0 .nil
/-- examples/tests/12-s1ap.rs:7093-7102 -/
def E_RABToBeSwitchedULItemIE_Extensions : Ty := .sequenceOf (some 1) (some 65535) false E_RABToBeSwitchedULItemIE_Extensions_Entry
/-- examples/tests/12-s1ap.rs:1451-1459 -/
def E_RABToBeSwitchedULItem : Ty := .sequence true 1 (.required false E_RAB_ID (.required false TransportLayerAddress (.required false GTP_TEID (.optional 0 E_RABToBeSwitchedULItemIE_Extensions .nil))))
/-- examples/tests/12-s1ap.rs:7104-7109 -/
def E_RABToBeSwitchedULList_EntryValue : Ty := .openType (.cons 94 false E_RABToBeSwitchedULItem .nil)
/-- examples/tests/12-s1ap.rs:7111-7118 -/
def E_RABToBeSwitchedULList_Entry : Ty := .sequence false 0 (.required true ProtocolIE_ID (.required false Criticality (.required false E_RABToBeSwitchedULList_EntryValue .nil)))
/-- examples/tests/12-s1ap.rs:1461-1468 -/
def E_RABToBeSwitchedULList : Ty := .sequenceOf (some 1) (some 256) false E_RABToBeSwitchedULList_Entry
/-- examples/tests/12-s1ap.rs:1489-1491 -/
def EARFCN : Ty := .integer .u32 (some 0) (some 262143) true
/-- examples/tests/12-s1ap.rs:1493-1500 -/
def ECGI_List : Ty := .sequenceOf (some 1) (some 256) false EUTRAN_CGI
/-- examples/tests/12-s1ap.rs:1502-1509 -/
def ECGIList : Ty := .sequenceOf (some 1) (some 65535) false EUTRAN_CGI
/-- examples/tests/12-s1ap.rs:1511-1518 -/
def ECGIListForRestart : Ty := .sequenceOf (some 1) (some 256) false EUTRAN_CGI
/-- examples/tests/12-s1ap.rs:1520-1522 -/
def EDT_Session : Ty := .enumerated .u8 (some 0) (some 0) true
/-- examples/tests/12-s1ap.rs:1547-1552 -/
def EHRPDMultiSectorLoadReportingResponseItem : Ty := .sequence true 0 (.required false EHRPD_Sector_ID (.required false EHRPDSectorLoadReportingResponse .nil))
/-- examples/tests/12-s1ap.rs:7165-7167 -/
def EN_DCSONConfigurationTransferIE_Extensions_Entry : Ty := .sequence false 0 .nil
/-- examples/tests/12-s1ap.rs:7169-7178 -/
def EN_DCSONConfigurationTransferIE_Extensions : Ty := .sequenceOf (some 1) (some 65535) false EN_DCSONConfigurationTransferIE_Extensions_Entry
/-- examples/tests/12-s1ap.rs:7528-7530 -/
def ENBX2ExtTLAIE_Extensions_Entry : Ty := .sequence false 0 .nil
/-- examples/tests/12-s1ap.rs:7532-7539 -/
def ENBX2ExtTLAIE_Extensions : Ty := .sequenceOf (some 1) (some 65535) false ENBX2ExtTLAIE_Extensions_Entry
/-- examples/tests/12-s1ap.rs:1727-1729 -/
def ENBX2GTPTLAs : Ty := .sequenceOf (some 1) (some 16) false TransportLayerAddress
/-- examples/tests/12-s1ap.rs:1712-1721 -/
def ENBX2ExtTLA : Ty := .sequence true 3 (.optional 0 TransportLayerAddress (.optional 1 ENBX2GTPTLAs (.optional 2 ENBX2ExtTLAIE_Extensions .nil)))
/-- examples/tests/12-s1ap.rs:1723-1725 -/
def ENBX2ExtTLAs : Ty := .sequenceOf (some 1) (some 16) false ENBX2ExtTLA
/-- examples/tests/12-s1ap.rs:1702-1704 -/
def ENBIndirectX2TransportLayerAddresses : Ty := .sequenceOf (some 1) (some 2) false TransportLayerAddress
/-- examples/tests/12-s1ap.rs:12417-12424 -/
def X2TNLConfigurationInfoIE_Extensions_EntryExtensionValue : Ty := .openType (.cons 193 false ENBIndirectX2TransportLayerAddresses (.cons 153 false ENBX2ExtTLAs .nil))
/-- examples/tests/12-s1ap.rs:12426-12433 -/
def X2TNLConfigurationInfoIE_Extensions_Entry : Ty := .sequence false 0 (.required true ProtocolExtensionID (.required false Criticality (.required false X2TNLConfigurationInfoIE_Extensions_EntryExtensionValue .nil)))
/-- examples/tests/12-s1ap.rs:12435-12442 -/
def X2TNLConfigurationInfoIE_Extensions : Ty := .sequenceOf (some 1) (some 65535) false X2TNLConfigurationInfoIE_Extensions_Entry
/-- examples/tests/12-s1ap.rs:1731-1733 -/
def ENBX2TLAs : Ty := .sequenceOf (some 1) (some 2) false TransportLayerAddress
/-- examples/tests/12-s1ap.rs:5215-5221 -/
def X2TNLConfigurationInfo : Ty := .sequence true 1 (.required false ENBX2TLAs (.optional 0 X2TNLConfigurationInfoIE_Extensions .nil))
/-- examples/tests/12-s1ap.rs:3131-3133 -/
def NB_IoT_RLF_Report_Container : Ty := .octetstring none none false
/-- examples/tests/12-s1ap.rs:10122-10127 -/
def RLFReportInformationIE_Extensions_EntryExtensionValue : Ty := .openType (.cons 313 false NB_IoT_RLF_Report_Container .nil)
/-- examples/tests/12-s1ap.rs:10129-10136 -/
def RLFReportInformationIE_Extensions_Entry : Ty := .sequence false 0 (.required true ProtocolExtensionID (.required false Criticality (.required false RLFReportInformationIE_Extensions_EntryExtensionValue .nil)))
/-- examples/tests/12-s1ap.rs:10138-10145 -/
def RLFReportInformationIE_Extensions : Ty := .sequenceOf (some 1) (some 65535) false RLFReportInformationIE_Extensions_Entry
/-- examples/tests/12-s1ap.rs:4768-4770 -/
def UE_RLF_Report_Container_for_extended_bands : Ty := .octetstring none none false
/-- examples/tests/12-s1ap.rs:4764-4766 -/
def UE_RLF_Report_Container : Ty := .octetstring none none false
/-- examples/tests/12-s1ap.rs:3717-3726 -/
def RLFReportInformation : Ty := .sequence true 2 (.required false UE_RLF_Report_Container (.optional 0 UE_RLF_Report_Container_for_extended_bands (.optional 1 RLFReportInformationIE_Extensions .nil)))
/-- examples/tests/12-s1ap.rs:4047-4052 -/
def SONInformationReport : Ty := .choice 0 0 true (.cons 0 false RLFReportInformation .nil)
/-- examples/tests/12-s1ap.rs:10525-10530 -/
def SONInformation_ExtensionValue : Ty := .openType (.cons 206 false SONInformationReport .nil)
/-- examples/tests/12-s1ap.rs:4029-4036 -/
def SONInformation_Extension : Ty := .sequence false 0 (.required true ProtocolIE_ID (.required false Criticality (.required false SONInformation_ExtensionValue .nil)))
/-- examples/tests/12-s1ap.rs:3015-3017 -/
def MutingAvailabilityIndication : Ty := .enumerated .u8 (some 0) (some 1) true
/-- examples/tests/12-s1ap.rs:11122-11127 -/
def TimeSynchronisationInfoIE_Extensions_EntryExtensionValue : Ty := .openType (.cons 207 false MutingAvailabilityIndication .nil)
/-- examples/tests/12-s1ap.rs:11129-11136 -/
def TimeSynchronisationInfoIE_Extensions_Entry : Ty := .sequence false 0 (.required true ProtocolExtensionID (.required false Criticality (.required false TimeSynchronisationInfoIE_Extensions_EntryExtensionValue .nil)))
/-- examples/tests/12-s1ap.rs:11138-11147 -/
def TimeSynchronisationInfoIE_Extensions : Ty := .sequenceOf (some 1) (some 65535) false TimeSynchronisationInfoIE_Extensions_Entry
/-- examples/tests/12-s1ap.rs:4414-4416 -/
def SynchronisationStatus : Ty := .enumerated .u8 (some 0) (some 1) true
/-- examples/tests/12-s1ap.rs:4347-4349 -/
def StratumLevel : Ty := .integer .u8 (some 0) (some 3) true
/-- examples/tests/12-s1ap.rs:4646-4653 -/
def TimeSynchronisationInfo : Ty := .sequence true 1 (.required false StratumLevel (.required false SynchronisationStatus (.optional 0 TimeSynchronisationInfoIE_Extensions .nil)))
/-- examples/tests/12-s1ap.rs:9468-9470 -/
def MutingPatternInformationIE_Extensions_Entry : Ty := .sequence false 0 .nil
/-- examples/tests/12-s1ap.rs:9472-9481 -/
def MutingPatternInformationIE_Extensions : Ty := .sequenceOf (some 1) (some 65535) false MutingPatternInformationIE_Extensions_Entry
/-- examples/tests/12-s1ap.rs:9464-9466 -/
def INTEGER_46 : Ty := .integer .u16 (some 0) (some 10239) true
/-- examples/tests/12-s1ap.rs:9453-9455 -/
def ENUMERATED_45 : Ty := .enumerated .u8 (some 0) (some 4) true
/-- examples/tests/12-s1ap.rs:3023-3031 -/
def MutingPatternInformation : Ty := .sequence true 2 (.required false ENUMERATED_45 (.optional 0 INTEGER_46 (.optional 1 MutingPatternInformationIE_Extensions .nil)))
/-- examples/tests/12-s1ap.rs:10532-10539 -/
def SONInformationReplyIE_Extensions_EntryExtensionValue : Ty := .openType (.cons 208 false MutingPatternInformation (.cons 149 false TimeSynchronisationInfo .nil))
/-- examples/tests/12-s1ap.rs:10541-10548 -/
def SONInformationReplyIE_Extensions_Entry : Ty := .sequence false 0 (.required true ProtocolExtensionID (.required false Criticality (.required false SONInformationReplyIE_Extensions_EntryExtensionValue .nil)))
/-- examples/tests/12-s1ap.rs:10550-10557 -/
def SONInformationReplyIE_Extensions : Ty := .sequenceOf (some 1) (some 65535) false SONInformationReplyIE_Extensions_Entry
/-- examples/tests/12-s1ap.rs:4038-4045 -/
def SONInformationReply : Ty := .sequence true 2 (.optional 0 X2TNLConfigurationInfo (.optional 1 SONInformationReplyIE_Extensions .nil))
/-- examples/tests/12-s1ap.rs:4054-4056 -/
def SONInformationRequest : Ty := .enumerated .u8 (some 0) (some 0) true
/-- examples/tests/12-s1ap.rs:4018-4027 -/
def SONInformation : Ty := .choice 0 1 true (.cons 0 false SONInformationRequest (.cons 1 false SONInformationReply (.cons 0 true SONInformation_Extension .nil)))
/-- examples/tests/12-s1ap.rs:7210-7212 -/
def EN_DCTransferTypeReplyIE_Extensions_Entry : Ty := .sequence false 0 .nil
/-- examples/tests/12-s1ap.rs:7214-7221 -/
def EN_DCTransferTypeReplyIE_Extensions : Ty := .sequenceOf (some 1) (some 65535) false EN_DCTransferTypeReplyIE_Extensions_Entry
/-- examples/tests/12-s1ap.rs:7180-7182 -/
def EN_DCSONeNBIdentificationIE_Extensions_Entry : Ty := .sequence false 0 .nil
/-- examples/tests/12-s1ap.rs:7184-7193 -/
def EN_DCSONeNBIdentificationIE_Extensions : Ty := .sequenceOf (some 1) (some 65535) false EN_DCSONeNBIdentificationIE_Extensions_Entry
/-- examples/tests/12-s1ap.rs:1585-1592 -/
def EN_DCSONeNBIdentification : Ty := .sequence true 1 (.required false Global_ENB_ID (.required false TAI (.optional 0 EN_DCSONeNBIdentificationIE_Extensions .nil)))
/-- examples/tests/12-s1ap.rs:7195-7197 -/
def EN_DCSONengNBIdentificationIE_Extensions_Entry : Ty := .sequence false 0 .nil
/-- examples/tests/12-s1ap.rs:7199-7208 -/
def EN_DCSONengNBIdentificationIE_Extensions : Ty := .sequenceOf (some 1) (some 65535) false EN_DCSONengNBIdentificationIE_Extensions_Entry
/-- examples/tests/12-s1ap.rs:7784-7786 -/
def Global_en_gNB_IDIE_Extensions_Entry : Ty := .sequence false 0 .nil
/-- examples/tests/12-s1ap.rs:7788-7795 -/
def Global_en_gNB_IDIE_Extensions : Ty := .sequenceOf (some 1) (some 65535) false Global_en_gNB_IDIE_Extensions_Entry
/-- examples/tests/12-s1ap.rs:2156-2163 -/
def Global_en_gNB_ID : Ty := .sequence true 1 (.required false PLMNidentity (.required false En_gNB_ID (.optional 0 Global_en_gNB_IDIE_Extensions .nil)))
/-- examples/tests/12-s1ap.rs:1594-1601 -/
def EN_DCSONengNBIdentification : Ty := .sequence true 1 (.required false Global_en_gNB_ID (.required false TAI (.optional 0 EN_DCSONengNBIdentificationIE_Extensions .nil)))
/-- examples/tests/12-s1ap.rs:1603-1610 -/
def EN_DCTransferTypeReply : Ty := .sequence true 1 (.required false EN_DCSONengNBIdentification (.required false EN_DCSONeNBIdentification (.optional 0 EN_DCTransferTypeReplyIE_Extensions .nil)))
/-- examples/tests/12-s1ap.rs:7223-7225 -/
def EN_DCTransferTypeRequestIE_Extensions_Entry : Ty := .sequence false 0 .nil
/-- examples/tests/12-s1ap.rs:7227-7236 -/
def EN_DCTransferTypeRequestIE_Extensions : Ty := .sequenceOf (some 1) (some 65535) false EN_DCTransferTypeRequestIE_Extensions_Entry
/-- examples/tests/12-s1ap.rs:7649-7651 -/
def FiveGSTAIIE_Extensions_Entry : Ty := .sequence false 0 .nil
/-- examples/tests/12-s1ap.rs:7653-7660 -/
def FiveGSTAIIE_Extensions : Ty := .sequenceOf (some 1) (some 65535) false FiveGSTAIIE_Extensions_Entry
/-- examples/tests/12-s1ap.rs:1980-1982 -/
def FiveGSTAC : Ty := .octetstring (some 3) (some 3) false
/-- examples/tests/12-s1ap.rs:1984-1991 -/
def FiveGSTAI : Ty := .sequence true 1 (.required false PLMNidentity (.required false FiveGSTAC (.optional 0 FiveGSTAIIE_Extensions .nil)))
/-- examples/tests/12-s1ap.rs:1612-1625 -/
def EN_DCTransferTypeRequest : Ty := .sequence true 4 (.required false EN_DCSONeNBIdentification (.required false EN_DCSONengNBIdentification (.optional 0 EN_DCSONeNBIdentification (.optional 1 TAI (.optional 2 FiveGSTAI (.optional 3 EN_DCTransferTypeRequestIE_Extensions .nil))))))
/-- examples/tests/12-s1ap.rs:1576-1583 -/
def EN_DCSONTransferType : Ty := .choice 0 1 true (.cons 0 false EN_DCTransferTypeRequest (.cons 1 false EN_DCTransferTypeReply .nil))
/-- examples/tests/12-s1ap.rs:1565-1574 -/
def EN_DCSONConfigurationTransfer : Ty := .sequence true 2 (.required false EN_DCSONTransferType (.required false SONInformation (.optional 0 X2TNLConfigurationInfo (.optional 1 EN_DCSONConfigurationTransferIE_Extensions .nil))))
/-- examples/tests/12-s1ap.rs:7238-7240 -/
def ENB_EarlyStatusTransfer_TransparentContainerIE_Extensions_Entry : Ty := .sequence false 0 .nil
/-- examples/tests/12-s1ap.rs:7242-7251 -/
def ENB_EarlyStatusTransfer_TransparentContainerIE_Extensions : Ty := .sequenceOf (some 1) (some 65535) false ENB_EarlyStatusTransfer_TransparentContainerIE_Extensions_Entry
/-- examples/tests/12-s1ap.rs:1627-1633 -/
def ENB_EarlyStatusTransfer_TransparentContainer : Ty := .sequence true 1 (.required false Bearers_SubjectToEarlyStatusTransferList (.optional 0 ENB_EarlyStatusTransfer_TransparentContainerIE_Extensions .nil))
/-- examples/tests/12-s1ap.rs:7269-7271 -/
def ENB_StatusTransfer_TransparentContainerIE_Extensions_Entry : Ty := .sequence false 0 .nil
/-- examples/tests/12-s1ap.rs:7273-7282 -/
def ENB_StatusTransfer_TransparentContainerIE_Extensions : Ty := .sequenceOf (some 1) (some 65535) false ENB_StatusTransfer_TransparentContainerIE_Extensions_Entry
/-- examples/tests/12-s1ap.rs:1648-1654 -/
def ENB_StatusTransfer_TransparentContainer : Ty := .sequence true 1 (.required false Bearers_SubjectToStatusTransferList (.optional 0 ENB_StatusTransfer_TransparentContainerIE_Extensions .nil))
/-- examples/tests/12-s1ap.rs:12067-12069 -/
def UL_CP_SecurityInformationIE_Extensions_Entry : Ty := .sequence false 0 .nil
/-- examples/tests/12-s1ap.rs:12071-12080 -/
def UL_CP_SecurityInformationIE_Extensions : Ty := .sequenceOf (some 1) (some 65535) false UL_CP_SecurityInformationIE_Extensions_Entry
/-- examples/tests/12-s1ap.rs:5031-5033 -/
def UL_NAS_Count : Ty := .bitstring (some 5) (some 5) false
/-- examples/tests/12-s1ap.rs:5035-5037 -/
def UL_NAS_MAC : Ty := .bitstring (some 16) (some 16) false
/-- examples/tests/12-s1ap.rs:5022-5029 -/
def UL_CP_SecurityInformation : Ty := .sequence true 1 (.required false UL_NAS_MAC (.required false UL_NAS_Count (.optional 0 UL_CP_SecurityInformationIE_Extensions .nil)))
/-- examples/tests/12-s1ap.rs:10376-10378 -/
def S_TMSIIE_Extensions_Entry : Ty := .sequence false 0 .nil
/-- examples/tests/12-s1ap.rs:10380-10387 -/
def S_TMSIIE_Extensions : Ty := .sequenceOf (some 1) (some 65535) false S_TMSIIE_Extensions_Entry
/-- examples/tests/12-s1ap.rs:3970-3977 -/
def S_TMSI : Ty := .sequence true 1 (.required false MME_Code (.required false M_TMSI (.optional 0 S_TMSIIE_Extensions .nil)))
/-- examples/tests/12-s1ap.rs:7284-7297 -/
def ENBCPRelocationIndicationProtocolIEs_EntryValue : Ty := .openType (.cons 100 false EUTRAN_CGI (.cons 96 false S_TMSI (.cons 67 false TAI (.cons 254 false UL_CP_SecurityInformation (.cons 8 false ENB_UE_S1AP_ID .nil)))))
/-- examples/tests/12-s1ap.rs:7299-7306 -/
def ENBCPRelocationIndicationProtocolIEs_Entry : Ty := .sequence false 0 (.required true ProtocolIE_ID (.required false Criticality (.required false ENBCPRelocationIndicationProtocolIEs_EntryValue .nil)))
/-- examples/tests/12-s1ap.rs:7308-7317 -/
def ENBCPRelocationIndicationProtocolIEs : Ty := .sequenceOf (some 0) (some 65535) false ENBCPRelocationIndicationProtocolIEs_Entry
/-- examples/tests/12-s1ap.rs:1660-1664 -/
def ENBCPRelocationIndication : Ty := .sequence true 0 (.required false ENBCPRelocationIndicationProtocolIEs .nil)
/-- examples/tests/12-s1ap.rs:10920-10922 -/
def SynchronisationInformationIE_Extensions_Entry : Ty := .sequence false 0 .nil
/-- examples/tests/12-s1ap.rs:10924-10933 -/
def SynchronisationInformationIE_Extensions : Ty := .sequenceOf (some 1) (some 65535) false SynchronisationInformationIE_Extensions_Entry
/-- examples/tests/12-s1ap.rs:8923-8925 -/
def ListeningSubframePatternIE_Extensions_Entry : Ty := .sequence false 0 .nil
/-- examples/tests/12-s1ap.rs:8927-8936 -/
def ListeningSubframePatternIE_Extensions : Ty := .sequenceOf (some 1) (some 65535) false ListeningSubframePatternIE_Extensions_Entry
/-- examples/tests/12-s1ap.rs:8919-8921 -/
def INTEGER_41 : Ty := .integer .u16 (some 0) (some 10239) true
/-- examples/tests/12-s1ap.rs:8909-8911 -/
def ENUMERATED_40 : Ty := .enumerated .u8 (some 0) (some 3) true
/-- examples/tests/12-s1ap.rs:2586-2593 -/
def ListeningSubframePattern : Ty := .sequence true 1 (.required false ENUMERATED_40 (.required false INTEGER_41 (.optional 0 ListeningSubframePatternIE_Extensions .nil)))
/-- examples/tests/12-s1ap.rs:4401-4412 -/
def SynchronisationInformation : Ty := .sequence true 4 (.optional 0 StratumLevel (.optional 1 ListeningSubframePattern (.optional 2 ECGI_List (.optional 3 SynchronisationInformationIE_Extensions .nil))))
/-- examples/tests/12-s1ap.rs:10496-10503 -/
def SONConfigurationTransferIE_Extensions_EntryExtensionValue : Ty := .openType (.cons 209 false SynchronisationInformation (.cons 152 false X2TNLConfigurationInfo .nil))
/-- examples/tests/12-s1ap.rs:10505-10512 -/
def SONConfigurationTransferIE_Extensions_Entry : Ty := .sequence false 0 (.required true ProtocolExtensionID (.required false Criticality (.required false SONConfigurationTransferIE_Extensions_EntryExtensionValue .nil)))
/-- examples/tests/12-s1ap.rs:10514-10523 -/
def SONConfigurationTransferIE_Extensions : Ty := .sequenceOf (some 1) (some 65535) false SONConfigurationTransferIE_Extensions_Entry
/-- examples/tests/12-s1ap.rs:10738-10740 -/
def SourceeNB_IDIE_Extensions_Entry : Ty := .sequence false 0 .nil
/-- examples/tests/12-s1ap.rs:10742-10749 -/
def SourceeNB_IDIE_Extensions : Ty := .sequenceOf (some 1) (some 65535) false SourceeNB_IDIE_Extensions_Entry
/-- examples/tests/12-s1ap.rs:4324-4331 -/
def SourceeNB_ID : Ty := .sequence false 1 (.required false Global_ENB_ID (.required false TAI (.optional 0 SourceeNB_IDIE_Extensions .nil)))
/-- examples/tests/12-s1ap.rs:11081-11083 -/
def TargeteNB_IDIE_Extensions_Entry : Ty := .sequence false 0 .nil
/-- examples/tests/12-s1ap.rs:11085-11092 -/
def TargeteNB_IDIE_Extensions : Ty := .sequenceOf (some 1) (some 65535) false TargeteNB_IDIE_Extensions_Entry
/-- examples/tests/12-s1ap.rs:4609-4616 -/
def TargeteNB_ID : Ty := .sequence true 1 (.required false Global_ENB_ID (.required false TAI (.optional 0 TargeteNB_IDIE_Extensions .nil)))
/-- examples/tests/12-s1ap.rs:4008-4016 -/
def SONConfigurationTransfer : Ty := .sequence true 1 (.required false TargeteNB_ID (.required false SourceeNB_ID (.required false SONInformation (.optional 0 SONConfigurationTransferIE_Extensions .nil))))
/-- examples/tests/12-s1ap.rs:2479-2481 -/
def IntersystemSONConfigurationTransfer : Ty := .octetstring none none false
/-- examples/tests/12-s1ap.rs:7319-7328 -/
def ENBConfigurationTransferProtocolIEs_EntryValue : Ty := .openType (.cons 294 false EN_DCSONConfigurationTransfer (.cons 310 false IntersystemSONConfigurationTransfer (.cons 129 false SONConfigurationTransfer .nil)))
/-- examples/tests/12-s1ap.rs:7330-7337 -/
def ENBConfigurationTransferProtocolIEs_Entry : Ty := .sequence false 0 (.required true ProtocolIE_ID (.required false Criticality (.required false ENBConfigurationTransferProtocolIEs_EntryValue .nil)))
/-- examples/tests/12-s1ap.rs:7339-7346 -/
def ENBConfigurationTransferProtocolIEs : Ty := .sequenceOf (some 0) (some 65535) false ENBConfigurationTransferProtocolIEs_Entry
/-- examples/tests/12-s1ap.rs:1666-1670 -/
def ENBConfigurationTransfer : Ty := .sequence true 0 (.required false ENBConfigurationTransferProtocolIEs .nil)
/-- examples/tests/12-s1ap.rs:1735-1742 -/
def ENBname : Ty := .charstring .printable (some 1) (some 150) true
/-- examples/tests/12-s1ap.rs:3057-3059 -/
def NB_IoT_DefaultPagingDRX : Ty := .enumerated .u8 (some 0) (some 3) true
/-- examples/tests/12-s1ap.rs:3464-3466 -/
def PagingDRX : Ty := .enumerated .u8 (some 0) (some 3) true
/-- examples/tests/12-s1ap.rs:7348-7365 -/
def ENBConfigurationUpdateProtocolIEs_EntryValue : Ty := .openType (.cons 128 false CSG_IdList (.cons 292 false ConnectedengNBList (.cons 293 false ConnectedengNBList (.cons 137 false PagingDRX (.cons 234 false NB_IoT_DefaultPagingDRX (.cons 64 false SupportedTAs (.cons 60 false ENBname .nil)))))))
/-- examples/tests/12-s1ap.rs:7367-7374 -/
def ENBConfigurationUpdateProtocolIEs_Entry : Ty := .sequence false 0 (.required true ProtocolIE_ID (.required false Criticality (.required false ENBConfigurationUpdateProtocolIEs_EntryValue .nil)))
/-- examples/tests/12-s1ap.rs:7376-7383 -/
def ENBConfigurationUpdateProtocolIEs : Ty := .sequenceOf (some 0) (some 65535) false ENBConfigurationUpdateProtocolIEs_Entry
/-- examples/tests/12-s1ap.rs:1672-1676 -/
def ENBConfigurationUpdate : Ty := .sequence true 0 (.required false ENBConfigurationUpdateProtocolIEs .nil)
/-- examples/tests/12-s1ap.rs:7385-7390 -/
def ENBConfigurationUpdateAcknowledgeProtocolIEs_EntryValue : Ty := .openType (.cons 58 false CriticalityDiagnostics .nil)
/-- examples/tests/12-s1ap.rs:7392-7399 -/
def ENBConfigurationUpdateAcknowledgeProtocolIEs_Entry : Ty := .sequence false 0 (.required true ProtocolIE_ID (.required false Criticality (.required false ENBConfigurationUpdateAcknowledgeProtocolIEs_EntryValue .nil)))
/-- examples/tests/12-s1ap.rs:7401-7410 -/
def ENBConfigurationUpdateAcknowledgeProtocolIEs : Ty := .sequenceOf (some 0) (some 65535) false ENBConfigurationUpdateAcknowledgeProtocolIEs_Entry
/-- examples/tests/12-s1ap.rs:1678-1682 -/
def ENBConfigurationUpdateAcknowledge : Ty := .sequence true 0 (.required false ENBConfigurationUpdateAcknowledgeProtocolIEs .nil)
/-- examples/tests/12-s1ap.rs:4655-4657 -/
def TimeToWait : Ty := .enumerated .u8 (some 0) (some 5) true
/-- examples/tests/12-s1ap.rs:7412-7421 -/
def ENBConfigurationUpdateFailureProtocolIEs_EntryValue : Ty := .openType (.cons 2 false Cause (.cons 58 false CriticalityDiagnostics (.cons 65 false TimeToWait .nil)))
/-- examples/tests/12-s1ap.rs:7423-7430 -/
def ENBConfigurationUpdateFailureProtocolIEs_Entry : Ty := .sequence false 0 (.required true ProtocolIE_ID (.required false Criticality (.required false ENBConfigurationUpdateFailureProtocolIEs_EntryValue .nil)))
/-- examples/tests/12-s1ap.rs:7432-7441 -/
def ENBConfigurationUpdateFailureProtocolIEs : Ty := .sequenceOf (some 0) (some 65535) false ENBConfigurationUpdateFailureProtocolIEs_Entry
/-- examples/tests/12-s1ap.rs:1684-1688 -/
def ENBConfigurationUpdateFailure : Ty := .sequence true 0 (.required false ENBConfigurationUpdateFailureProtocolIEs .nil)
/-- examples/tests/12-s1ap.rs:10109-10111 -/
def RIMTransferIE_Extensions_Entry : Ty := .sequence false 0 .nil
/-- examples/tests/12-s1ap.rs:10113-10120 -/
def RIMTransferIE_Extensions : Ty := .sequenceOf (some 1) (some 65535) false RIMTransferIE_Extensions_Entry
/-- examples/tests/12-s1ap.rs:10100-10107 -/
def OCTET_STRING_50 : Ty := .octetstring (some 16) (some 16) false
/-- examples/tests/12-s1ap.rs:11068-11070 -/
def TargetRNC_IDIE_Extensions_Entry : Ty := .sequence false 0 .nil
/-- examples/tests/12-s1ap.rs:11072-11079 -/
def TargetRNC_IDIE_Extensions : Ty := .sequenceOf (some 1) (some 65535) false TargetRNC_IDIE_Extensions_Entry
/-- examples/tests/12-s1ap.rs:1956-1958 -/
def ExtendedRNC_ID : Ty := .integer .u16 (some 4096) (some 65535) false
/-- examples/tests/12-s1ap.rs:3728-3730 -/
def RNC_ID : Ty := .integer .u16 (some 0) (some 4095) false
/-- examples/tests/12-s1ap.rs:8863-8865 -/
def LAIIE_Extensions_Entry : Ty := .sequence false 0 .nil
/-- examples/tests/12-s1ap.rs:8867-8874 -/
def LAIIE_Extensions : Ty := .sequenceOf (some 1) (some 65535) false LAIIE_Extensions_Entry
/-- examples/tests/12-s1ap.rs:2510-2517 -/
def LAI : Ty := .sequence true 1 (.required false PLMNidentity (.required false LAC (.optional 0 LAIIE_Extensions .nil)))
/-- examples/tests/12-s1ap.rs:4592-4603 -/
def TargetRNC_ID : Ty := .sequence true 3 (.required false LAI (.optional 0 RAC (.required false RNC_ID (.optional 1 ExtendedRNC_ID (.optional 2 TargetRNC_IDIE_Extensions .nil)))))
/-- examples/tests/12-s1ap.rs:7719-7721 -/
def GERAN_Cell_IDIE_Extensions_Entry : Ty := .sequence false 0 .nil
/-- examples/tests/12-s1ap.rs:7723-7730 -/
def GERAN_Cell_IDIE_Extensions : Ty := .sequenceOf (some 1) (some 65535) false GERAN_Cell_IDIE_Extensions_Entry
/-- examples/tests/12-s1ap.rs:2062-2070 -/
def GERAN_Cell_ID : Ty := .sequence true 1 (.required false LAI (.required false RAC (.required false CI (.optional 0 GERAN_Cell_IDIE_Extensions .nil))))
/-- examples/tests/12-s1ap.rs:3696-3705 -/
def RIMRoutingAddress : Ty := .choice 0 0 true (.cons 0 false GERAN_Cell_ID (.cons 0 true TargetRNC_ID (.cons 1 true OCTET_STRING_50 .nil)))
/-- examples/tests/12-s1ap.rs:3692-3694 -/
def RIMInformation : Ty := .octetstring none none false
/-- examples/tests/12-s1ap.rs:3707-3715 -/
def RIMTransfer : Ty := .sequence true 2 (.required false RIMInformation (.optional 0 RIMRoutingAddress (.optional 1 RIMTransferIE_Extensions .nil)))
/-- examples/tests/12-s1ap.rs:2416-2421 -/
def Inter_SystemInformationTransferType : Ty := .choice 0 0 true (.cons 0 false RIMTransfer .nil)
/-- examples/tests/12-s1ap.rs:7443-7448 -/
def ENBDirectInformationTransferProtocolIEs_EntryValue : Ty := .openType (.cons 121 false Inter_SystemInformationTransferType .nil)
/-- examples/tests/12-s1ap.rs:7450-7457 -/
def ENBDirectInformationTransferProtocolIEs_Entry : Ty := .sequence false 0 (.required true ProtocolIE_ID (.required false Criticality (.required false ENBDirectInformationTransferProtocolIEs_EntryValue .nil)))
/-- examples/tests/12-s1ap.rs:7459-7468 -/
def ENBDirectInformationTransferProtocolIEs : Ty := .sequenceOf (some 0) (some 65535) false ENBDirectInformationTransferProtocolIEs_Entry
/-- examples/tests/12-s1ap.rs:1690-1694 -/
def ENBDirectInformationTransfer : Ty := .sequence true 0 (.required false ENBDirectInformationTransferProtocolIEs .nil)
/-- examples/tests/12-s1ap.rs:7470-7479 -/
def ENBEarlyStatusTransferProtocolIEs_EntryValue : Ty := .openType (.cons 0 false MME_UE_S1AP_ID (.cons 321 false ENB_EarlyStatusTransfer_TransparentContainer (.cons 8 false ENB_UE_S1AP_ID .nil)))
/-- examples/tests/12-s1ap.rs:7481-7488 -/
def ENBEarlyStatusTransferProtocolIEs_Entry : Ty := .sequence false 0 (.required true ProtocolIE_ID (.required false Criticality (.required false ENBEarlyStatusTransferProtocolIEs_EntryValue .nil)))
/-- examples/tests/12-s1ap.rs:7490-7497 -/
def ENBEarlyStatusTransferProtocolIEs : Ty := .sequenceOf (some 0) (some 65535) false ENBEarlyStatusTransferProtocolIEs_Entry
/-- examples/tests/12-s1ap.rs:1696-1700 -/
def ENBEarlyStatusTransfer : Ty := .sequence true 0 (.required false ENBEarlyStatusTransferProtocolIEs .nil)
/-- examples/tests/12-s1ap.rs:7499-7508 -/
def ENBStatusTransferProtocolIEs_EntryValue : Ty := .openType (.cons 0 false MME_UE_S1AP_ID (.cons 90 false ENB_StatusTransfer_TransparentContainer (.cons 8 false ENB_UE_S1AP_ID .nil)))
/-- examples/tests/12-s1ap.rs:7510-7517 -/
def ENBStatusTransferProtocolIEs_Entry : Ty := .sequence false 0 (.required true ProtocolIE_ID (.required false Criticality (.required false ENBStatusTransferProtocolIEs_EntryValue .nil)))
/-- examples/tests/12-s1ap.rs:7519-7526 -/
def ENBStatusTransferProtocolIEs : Ty := .sequenceOf (some 0) (some 65535) false ENBStatusTransferProtocolIEs_Entry
/-- examples/tests/12-s1ap.rs:1706-1710 -/
def ENBStatusTransfer : Ty := .sequence true 0 (.required false ENBStatusTransferProtocolIEs .nil)
/-- examples/tests/12-s1ap.rs:7554-7556 -/
def OCTET_STRING_21 : Ty := .octetstring none none false
/-- examples/tests/12-s1ap.rs:1757-1762 -/
def EUTRANResponse : Ty := .sequence true 0 (.required false OCTET_STRING_21 (.required false EUTRANcellLoadReportingResponse .nil))
/-- examples/tests/12-s1ap.rs:1764-1766 -/
def EUTRANRoundTripDelayEstimationInfo : Ty := .integer .u16 (some 0) (some 2047) false
/-- examples/tests/12-s1ap.rs:1814-1821 -/
def EmergencyAreaIDList : Ty := .sequenceOf (some 1) (some 65535) false EmergencyAreaID
/-- examples/tests/12-s1ap.rs:1823-1830 -/
def EmergencyAreaIDListForRestart : Ty := .sequenceOf (some 1) (some 256) false EmergencyAreaID
/-- examples/tests/12-s1ap.rs:1832-1834 -/
def EmergencyIndicator : Ty := .enumerated .u8 (some 0) (some 0) true
/-- examples/tests/12-s1ap.rs:1843-1845 -/
def EncryptionAlgorithms : Ty := .bitstring (some 16) (some 16) true
/-- examples/tests/12-s1ap.rs:7588-7601 -/
def ErrorIndicationProtocolIEs_EntryValue : Ty := .openType (.cons 2 false Cause (.cons 58 false CriticalityDiagnostics (.cons 0 false MME_UE_S1AP_ID (.cons 96 false S_TMSI (.cons 8 false ENB_UE_S1AP_ID .nil)))))
/-- examples/tests/12-s1ap.rs:7603-7610 -/
def ErrorIndicationProtocolIEs_Entry : Ty := .sequence false 0 (.required true ProtocolIE_ID (.required false Criticality (.required false ErrorIndicationProtocolIEs_EntryValue .nil)))
/-- examples/tests/12-s1ap.rs:7612-7619 -/
def ErrorIndicationProtocolIEs : Ty := .sequenceOf (some 0) (some 65535) false ErrorIndicationProtocolIEs_Entry
/-- examples/tests/12-s1ap.rs:1862-1866 -/
def ErrorIndication : Ty := .sequence true 0 (.required false ErrorIndicationProtocolIEs .nil)
/-- examples/tests/12-s1ap.rs:3253-3255 -/
def NumberOfMeasurementReportingLevels : Ty := .enumerated .u8 (some 0) (some 4) true
/-- examples/tests/12-s1ap.rs:1875-1879 -/
def EventTriggeredCellLoadReportingRequest : Ty := .sequence true 0 (.required false NumberOfMeasurementReportingLevels .nil)
/-- examples/tests/12-s1ap.rs:3281-3283 -/
def OverloadFlag : Ty := .enumerated .u8 (some 0) (some 0) true
/-- examples/tests/12-s1ap.rs:1881-1887 -/
def EventTriggeredCellLoadReportingResponse : Ty := .sequence true 1 (.required false CellLoadReportingResponse (.optional 0 OverloadFlag .nil))
/-- examples/tests/12-s1ap.rs:1889-1891 -/
def EventType : Ty := .enumerated .u8 (some 0) (some 2) true
/-- examples/tests/12-s1ap.rs:1898-1900 -/
def ExpectedActivityPeriod : Ty := .integer .u8 (some 1) (some 30) true
/-- examples/tests/12-s1ap.rs:1902-1904 -/
def ExpectedHOInterval : Ty := .enumerated .u8 (some 0) (some 6) true
/-- examples/tests/12-s1ap.rs:1915-1917 -/
def ExpectedIdlePeriod : Ty := .integer .u8 (some 1) (some 30) true
/-- examples/tests/12-s1ap.rs:7621-7623 -/
def ExpectedUEActivityBehaviourIE_Extensions_Entry : Ty := .sequence false 0 .nil
/-- examples/tests/12-s1ap.rs:7625-7634 -/
def ExpectedUEActivityBehaviourIE_Extensions : Ty := .sequenceOf (some 1) (some 65535) false ExpectedUEActivityBehaviourIE_Extensions_Entry
/-- examples/tests/12-s1ap.rs:4312-4314 -/
def SourceOfUEActivityBehaviourInformation : Ty := .enumerated .u8 (some 0) (some 1) true
/-- examples/tests/12-s1ap.rs:1919-1930 -/
def ExpectedUEActivityBehaviour : Ty := .sequence true 4 (.optional 0 ExpectedActivityPeriod (.optional 1 ExpectedIdlePeriod (.optional 2 SourceOfUEActivityBehaviourInformation (.optional 3 ExpectedUEActivityBehaviourIE_Extensions .nil))))
/-- examples/tests/12-s1ap.rs:7636-7638 -/
def ExpectedUEBehaviourIE_Extensions_Entry : Ty := .sequence false 0 .nil
/-- examples/tests/12-s1ap.rs:7640-7647 -/
def ExpectedUEBehaviourIE_Extensions : Ty := .sequenceOf (some 1) (some 65535) false ExpectedUEBehaviourIE_Extensions_Entry
/-- examples/tests/12-s1ap.rs:1932-1941 -/
def ExpectedUEBehaviour : Ty := .sequence true 3 (.optional 0 ExpectedUEActivityBehaviour (.optional 1 ExpectedHOInterval (.optional 2 ExpectedUEBehaviourIE_Extensions .nil)))
/-- examples/tests/12-s1ap.rs:1943-1945 -/
def Extended_UEIdentityIndexValue : Ty := .bitstring (some 14) (some 14) false
/-- examples/tests/12-s1ap.rs:1960-1962 -/
def ExtendedRepetitionPeriod : Ty := .integer .u32 (some 4096) (some 131071) false
/-- examples/tests/12-s1ap.rs:2983-2985 -/
def MobilityInformation : Ty := .bitstring (some 32) (some 32) false
/-- examples/tests/12-s1ap.rs:11149-11151 -/
def OCTET_STRING_65 : Ty := .octetstring none none false
/-- examples/tests/12-s1ap.rs:4667-4673 -/
def TooEarlyInterRATHOReportReportFromEUTRAN : Ty := .sequence true 1 (.required false OCTET_STRING_65 (.optional 0 MobilityInformation .nil))
/-- examples/tests/12-s1ap.rs:1964-1969 -/
def FailureEventReport : Ty := .choice 0 0 true (.cons 0 false TooEarlyInterRATHOReportReportFromEUTRAN .nil)
/-- examples/tests/12-s1ap.rs:1971-1973 -/
def FailureEventReportingCause : Ty := .enumerated .u8 (some 0) (some 2) true
/-- examples/tests/12-s1ap.rs:1993-1995 -/
def FiveQI : Ty := .integer .u8 (some 0) (some 255) true
/-- examples/tests/12-s1ap.rs:2105-2112 -/
def GUMMEIList : Ty := .sequenceOf (some 1) (some 256) false GUMMEI
/-- examples/tests/12-s1ap.rs:2114-2116 -/
def GUMMEIType : Ty := .enumerated .u8 (some 0) (some 1) true
/-- examples/tests/12-s1ap.rs:2122-2124 -/
def GWContextReleaseIndication : Ty := .enumerated .u8 (some 0) (some 0) true
/-- examples/tests/12-s1ap.rs:2292-2294 -/
def HoReportType : Ty := .enumerated .u8 (some 0) (some 0) true
/-- examples/tests/12-s1ap.rs:2299-2301 -/
def HoType : Ty := .enumerated .u8 (some 0) (some 1) true
/-- examples/tests/12-s1ap.rs:2177-2187 -/
def HOReport : Ty := .sequence true 1 (.required false HoType (.required false HoReportType (.required false IRAT_Cell_ID (.required false IRAT_Cell_ID (.required false CandidateCellList (.optional 0 CandidatePCIList .nil))))))
/-- examples/tests/12-s1ap.rs:2189-2191 -/
def HOReportingCause : Ty := .enumerated .u8 (some 0) (some 2) true
/-- examples/tests/12-s1ap.rs:7797-7806 -/
def HandoverCancelProtocolIEs_EntryValue : Ty := .openType (.cons 2 false Cause (.cons 0 false MME_UE_S1AP_ID (.cons 8 false ENB_UE_S1AP_ID .nil)))
/-- examples/tests/12-s1ap.rs:7808-7815 -/
def HandoverCancelProtocolIEs_Entry : Ty := .sequence false 0 (.required true ProtocolIE_ID (.required false Criticality (.required false HandoverCancelProtocolIEs_EntryValue .nil)))
/-- examples/tests/12-s1ap.rs:7817-7824 -/
def HandoverCancelProtocolIEs : Ty := .sequenceOf (some 0) (some 65535) false HandoverCancelProtocolIEs_Entry
/-- examples/tests/12-s1ap.rs:2198-2202 -/
def HandoverCancel : Ty := .sequence true 0 (.required false HandoverCancelProtocolIEs .nil)
/-- examples/tests/12-s1ap.rs:7826-7835 -/
def HandoverCancelAcknowledgeProtocolIEs_EntryValue : Ty := .openType (.cons 58 false CriticalityDiagnostics (.cons 0 false MME_UE_S1AP_ID (.cons 8 false ENB_UE_S1AP_ID .nil)))
/-- examples/tests/12-s1ap.rs:7837-7844 -/
def HandoverCancelAcknowledgeProtocolIEs_Entry : Ty := .sequence false 0 (.required true ProtocolIE_ID (.required false Criticality (.required false HandoverCancelAcknowledgeProtocolIEs_EntryValue .nil)))
/-- examples/tests/12-s1ap.rs:7846-7855 -/
def HandoverCancelAcknowledgeProtocolIEs : Ty := .sequenceOf (some 0) (some 65535) false HandoverCancelAcknowledgeProtocolIEs_Entry
/-- examples/tests/12-s1ap.rs:2204-2208 -/
def HandoverCancelAcknowledge : Ty := .sequence true 0 (.required false HandoverCancelAcknowledgeProtocolIEs .nil)
/-- examples/tests/12-s1ap.rs:4558-4560 -/
def Target_ToSource_TransparentContainer : Ty := .octetstring none none false
/-- examples/tests/12-s1ap.rs:3049-3051 -/
def NASSecurityParametersfromE_UTRAN : Ty := .octetstring none none false
/-- examples/tests/12-s1ap.rs:2281-2283 -/
def HandoverType : Ty := .enumerated .u8 (some 0) (some 4) true
/-- examples/tests/12-s1ap.rs:7857-7878 -/
def HandoverCommandProtocolIEs_EntryValue : Ty := .openType (.cons 58 false CriticalityDiagnostics (.cons 12 false E_RABSubjecttoDataForwardingList (.cons 13 false E_RABList (.cons 1 false HandoverType (.cons 0 false MME_UE_S1AP_ID (.cons 135 false NASSecurityParametersfromE_UTRAN (.cons 123 false Target_ToSource_TransparentContainer (.cons 139 false Target_ToSource_TransparentContainer (.cons 8 false ENB_UE_S1AP_ID .nil)))))))))
/-- examples/tests/12-s1ap.rs:7880-7887 -/
def HandoverCommandProtocolIEs_Entry : Ty := .sequence false 0 (.required true ProtocolIE_ID (.required false Criticality (.required false HandoverCommandProtocolIEs_EntryValue .nil)))
/-- examples/tests/12-s1ap.rs:7889-7896 -/
def HandoverCommandProtocolIEs : Ty := .sequenceOf (some 0) (some 65535) false HandoverCommandProtocolIEs_Entry
/-- examples/tests/12-s1ap.rs:2210-2214 -/
def HandoverCommand : Ty := .sequence true 0 (.required false HandoverCommandProtocolIEs .nil)
/-- examples/tests/12-s1ap.rs:7898-7907 -/
def HandoverFailureProtocolIEs_EntryValue : Ty := .openType (.cons 2 false Cause (.cons 58 false CriticalityDiagnostics (.cons 0 false MME_UE_S1AP_ID .nil)))
/-- examples/tests/12-s1ap.rs:7909-7916 -/
def HandoverFailureProtocolIEs_Entry : Ty := .sequence false 0 (.required true ProtocolIE_ID (.required false Criticality (.required false HandoverFailureProtocolIEs_EntryValue .nil)))
/-- examples/tests/12-s1ap.rs:7918-7925 -/
def HandoverFailureProtocolIEs : Ty := .sequenceOf (some 0) (some 65535) false HandoverFailureProtocolIEs_Entry
/-- examples/tests/12-s1ap.rs:2216-2220 -/
def HandoverFailure : Ty := .sequence true 0 (.required false HandoverFailureProtocolIEs .nil)
/-- examples/tests/12-s1ap.rs:2222-2224 -/
def HandoverFlag : Ty := .enumerated .u8 (some 0) (some 0) true
/-- examples/tests/12-s1ap.rs:3242-3244 -/
def NotifySourceeNB : Ty := .enumerated .u8 (some 0) (some 0) true
/-- examples/tests/12-s1ap.rs:2519-2526 -/
def LHN_ID : Ty := .octetstring (some 32) (some 256) false
/-- examples/tests/12-s1ap.rs:7927-7946 -/
def HandoverNotifyProtocolIEs_EntryValue : Ty := .openType (.cons 100 false EUTRAN_CGI (.cons 186 false LHN_ID (.cons 0 false MME_UE_S1AP_ID (.cons 320 false NotifySourceeNB (.cons 288 false PSCellInformation (.cons 67 false TAI (.cons 176 false TunnelInformation (.cons 8 false ENB_UE_S1AP_ID .nil))))))))
/-- examples/tests/12-s1ap.rs:7948-7955 -/
def HandoverNotifyProtocolIEs_Entry : Ty := .sequence false 0 (.required true ProtocolIE_ID (.required false Criticality (.required false HandoverNotifyProtocolIEs_EntryValue .nil)))
/-- examples/tests/12-s1ap.rs:7957-7964 -/
def HandoverNotifyProtocolIEs : Ty := .sequenceOf (some 0) (some 65535) false HandoverNotifyProtocolIEs_Entry
/-- examples/tests/12-s1ap.rs:2229-2233 -/
def HandoverNotify : Ty := .sequence true 0 (.required false HandoverNotifyProtocolIEs .nil)
/-- examples/tests/12-s1ap.rs:7966-7977 -/
def HandoverPreparationFailureProtocolIEs_EntryValue : Ty := .openType (.cons 2 false Cause (.cons 58 false CriticalityDiagnostics (.cons 0 false MME_UE_S1AP_ID (.cons 8 false ENB_UE_S1AP_ID .nil))))
/-- examples/tests/12-s1ap.rs:7979-7986 -/
def HandoverPreparationFailureProtocolIEs_Entry : Ty := .sequence false 0 (.required true ProtocolIE_ID (.required false Criticality (.required false HandoverPreparationFailureProtocolIEs_EntryValue .nil)))
/-- examples/tests/12-s1ap.rs:7988-7997 -/
def HandoverPreparationFailureProtocolIEs : Ty := .sequenceOf (some 0) (some 65535) false HandoverPreparationFailureProtocolIEs_Entry
/-- examples/tests/12-s1ap.rs:2235-2239 -/
def HandoverPreparationFailure : Ty := .sequence true 0 (.required false HandoverPreparationFailureProtocolIEs .nil)
/-- examples/tests/12-s1ap.rs:12278-12280 -/
def V2XServicesAuthorizedIE_Extensions_Entry : Ty := .sequence false 0 .nil
/-- examples/tests/12-s1ap.rs:12282-12289 -/
def V2XServicesAuthorizedIE_Extensions : Ty := .sequenceOf (some 1) (some 65535) false V2XServicesAuthorizedIE_Extensions_Entry
/-- examples/tests/12-s1ap.rs:3555-3557 -/
def PedestrianUE : Ty := .enumerated .u8 (some 0) (some 1) true
/-- examples/tests/12-s1ap.rs:5103-5105 -/
def VehicleUE : Ty := .enumerated .u8 (some 0) (some 1) true
/-- examples/tests/12-s1ap.rs:5092-5101 -/
def V2XServicesAuthorized : Ty := .sequence true 3 (.optional 0 VehicleUE (.optional 1 PedestrianUE (.optional 2 V2XServicesAuthorizedIE_Extensions .nil)))
/-- examples/tests/12-s1ap.rs:5015-5017 -/
def UEUserPlaneCIoTSupportIndicator : Ty := .enumerated .u8 (some 0) (some 0) true
/-- examples/tests/12-s1ap.rs:12052-12054 -/
def UESidelinkAggregateMaximumBitrateIE_Extensions_Entry : Ty := .sequence false 0 .nil
/-- examples/tests/12-s1ap.rs:12056-12065 -/
def UESidelinkAggregateMaximumBitrateIE_Extensions : Ty := .sequenceOf (some 1) (some 65535) false UESidelinkAggregateMaximumBitrateIE_Extensions_Entry
/-- examples/tests/12-s1ap.rs:5007-5013 -/
def UESidelinkAggregateMaximumBitrate : Ty := .sequence true 1 (.required false BitRate (.optional 0 UESidelinkAggregateMaximumBitrateIE_Extensions .nil))
/-- examples/tests/12-s1ap.rs:12039-12041 -/
def UESecurityCapabilitiesIE_Extensions_Entry : Ty := .sequence false 0 .nil
/-- examples/tests/12-s1ap.rs:12043-12050 -/
def UESecurityCapabilitiesIE_Extensions : Ty := .sequenceOf (some 1) (some 65535) false UESecurityCapabilitiesIE_Extensions_Entry
/-- examples/tests/12-s1ap.rs:2408-2410 -/
def IntegrityProtectionAlgorithms : Ty := .bitstring (some 16) (some 16) true
/-- examples/tests/12-s1ap.rs:4998-5005 -/
def UESecurityCapabilities : Ty := .sequence true 1 (.required false EncryptionAlgorithms (.required false IntegrityProtectionAlgorithms (.optional 0 UESecurityCapabilitiesIE_Extensions .nil)))
/-- examples/tests/12-s1ap.rs:4270-4272 -/
def ServiceType : Ty := .enumerated .u8 (some 0) (some 1) true
/-- examples/tests/12-s1ap.rs:11355-11360 -/
def UEAppLayerMeasConfigIE_Extensions_EntryExtensionValue : Ty := .openType (.cons 276 false ServiceType .nil)
/-- examples/tests/12-s1ap.rs:11362-11369 -/
def UEAppLayerMeasConfigIE_Extensions_Entry : Ty := .sequence false 0 (.required true ProtocolExtensionID (.required false Criticality (.required false UEAppLayerMeasConfigIE_Extensions_EntryExtensionValue .nil)))
/-- examples/tests/12-s1ap.rs:11371-11378 -/
def UEAppLayerMeasConfigIE_Extensions : Ty := .sequenceOf (some 1) (some 65535) false UEAppLayerMeasConfigIE_Extensions_Entry
/-- examples/tests/12-s1ap.rs:11346-11353 -/
def OCTET_STRING_66 : Ty := .octetstring (some 1) (some 1000) false
/-- examples/tests/12-s1ap.rs:4843-4850 -/
def UEAppLayerMeasConfig : Ty := .sequence true 1 (.required false OCTET_STRING_66 (.required false AreaScopeOfQMC (.optional 0 UEAppLayerMeasConfigIE_Extensions .nil)))
/-- examples/tests/12-s1ap.rs:5039-5041 -/
def URI_Address : Ty := .charstring .visible none none false
/-- examples/tests/12-s1ap.rs:2830-2832 -/
def MDT_ConfigurationNR : Ty := .octetstring none none false
/-- examples/tests/12-s1ap.rs:2858-2860 -/
def MDTPLMNList : Ty := .sequenceOf (some 1) (some 16) false PLMNidentity
/-- examples/tests/12-s1ap.rs:9181-9186 -/
def MDT_ConfigurationIE_Extensions_EntryExtensionValue : Ty := .openType (.cons 178 false MDTPLMNList .nil)
/-- examples/tests/12-s1ap.rs:9188-9195 -/
def MDT_ConfigurationIE_Extensions_Entry : Ty := .sequence false 0 (.required true ProtocolExtensionID (.required false Criticality (.required false MDT_ConfigurationIE_Extensions_EntryExtensionValue .nil)))
/-- examples/tests/12-s1ap.rs:9197-9204 -/
def MDT_ConfigurationIE_Extensions : Ty := .sequenceOf (some 1) (some 65535) false MDT_ConfigurationIE_Extensions_Entry
/-- examples/tests/12-s1ap.rs:9033-9035 -/
def LoggedMBSFNMDTIE_Extensions_Entry : Ty := .sequence false 0 .nil
/-- examples/tests/12-s1ap.rs:9037-9044 -/
def LoggedMBSFNMDTIE_Extensions : Ty := .sequenceOf (some 1) (some 65535) false LoggedMBSFNMDTIE_Extensions_Entry
/-- examples/tests/12-s1ap.rs:9168-9170 -/
def MBSFN_ResultToLogInfoIE_Extensions_Entry : Ty := .sequence false 0 .nil
/-- examples/tests/12-s1ap.rs:9172-9179 -/
def MBSFN_ResultToLogInfoIE_Extensions : Ty := .sequenceOf (some 1) (some 65535) false MBSFN_ResultToLogInfoIE_Extensions_Entry
/-- examples/tests/12-s1ap.rs:9164-9166 -/
def INTEGER_42 : Ty := .integer .u8 (some 0) (some 255) false
/-- examples/tests/12-s1ap.rs:2801-2809 -/
def MBSFN_ResultToLogInfo : Ty := .sequence true 2 (.optional 0 INTEGER_42 (.required false EARFCN (.optional 1 MBSFN_ResultToLogInfoIE_Extensions .nil)))
/-- examples/tests/12-s1ap.rs:2797-2799 -/
def MBSFN_ResultToLog : Ty := .sequenceOf (some 1) (some 8) false MBSFN_ResultToLogInfo
/-- examples/tests/12-s1ap.rs:2633-2635 -/
def LoggingDuration : Ty := .enumerated .u8 (some 0) (some 5) false
/-- examples/tests/12-s1ap.rs:2645-2647 -/
def LoggingInterval : Ty := .enumerated .u8 (some 0) (some 7) false
/-- examples/tests/12-s1ap.rs:2613-2622 -/
def LoggedMBSFNMDT : Ty := .sequence true 2 (.required false LoggingInterval (.required false LoggingDuration (.optional 0 MBSFN_ResultToLog (.optional 1 LoggedMBSFNMDTIE_Extensions .nil))))
/-- examples/tests/12-s1ap.rs:9206-9211 -/
def MDTMode_ExtensionValue : Ty := .openType (.cons 197 false LoggedMBSFNMDT .nil)
/-- examples/tests/12-s1ap.rs:2849-2856 -/
def MDTMode_Extension : Ty := .sequence false 0 (.required true ProtocolIE_ID (.required false Criticality (.required false MDTMode_ExtensionValue .nil)))
/-- examples/tests/12-s1ap.rs:12305-12307 -/
def WLANMeasurementConfigurationIE_Extensions_Entry : Ty := .sequence false 0 .nil
/-- examples/tests/12-s1ap.rs:12309-12318 -/
def WLANMeasurementConfigurationIE_Extensions : Ty := .sequenceOf (some 1) (some 65535) false WLANMeasurementConfigurationIE_Extensions_Entry
/-- examples/tests/12-s1ap.rs:12298-12300 -/
def ENUMERATED_68 : Ty := .enumerated .u8 (some 0) (some 0) true
/-- examples/tests/12-s1ap.rs:12291-12293 -/
def ENUMERATED_67 : Ty := .enumerated .u8 (some 0) (some 0) true
/-- examples/tests/12-s1ap.rs:5144-5151 -/
def WLANName : Ty := .octetstring (some 1) (some 32) false
/-- examples/tests/12-s1ap.rs:5126-5128 -/
def WLANMeasConfigNameList : Ty := .sequenceOf (some 1) (some 4) false WLANName
/-- examples/tests/12-s1ap.rs:5119-5121 -/
def WLANMeasConfig : Ty := .enumerated .u8 (some 0) (some 0) true
/-- examples/tests/12-s1ap.rs:5130-5142 -/
def WLANMeasurementConfiguration : Ty := .sequence true 4 (.required false WLANMeasConfig (.optional 0 WLANMeasConfigNameList (.optional 1 ENUMERATED_67 (.optional 2 ENUMERATED_68 (.optional 3 WLANMeasurementConfigurationIE_Extensions .nil)))))
/-- examples/tests/12-s1ap.rs:9046-9053 -/
def LoggedMDTIE_Extensions_EntryExtensionValue : Ty := .openType (.cons 284 false BluetoothMeasurementConfiguration (.cons 285 false WLANMeasurementConfiguration .nil))
/-- examples/tests/12-s1ap.rs:9055-9062 -/
def LoggedMDTIE_Extensions_Entry : Ty := .sequence false 0 (.required true ProtocolExtensionID (.required false Criticality (.required false LoggedMDTIE_Extensions_EntryExtensionValue .nil)))
/-- examples/tests/12-s1ap.rs:9064-9071 -/
def LoggedMDTIE_Extensions : Ty := .sequenceOf (some 1) (some 65535) false LoggedMDTIE_Extensions_Entry
/-- examples/tests/12-s1ap.rs:2624-2631 -/
def LoggedMDT : Ty := .sequence true 1 (.required false LoggingInterval (.required false LoggingDuration (.optional 0 LoggedMDTIE_Extensions .nil)))
/-- examples/tests/12-s1ap.rs:2834-2836 -/
def MDT_Location_Info : Ty := .bitstring (some 8) (some 8) false
/-- examples/tests/12-s1ap.rs:9151-9153 -/
def M7ConfigurationIE_Extensions_Entry : Ty := .sequence false 0 .nil
/-- examples/tests/12-s1ap.rs:9155-9162 -/
def M7ConfigurationIE_Extensions : Ty := .sequenceOf (some 1) (some 65535) false M7ConfigurationIE_Extensions_Entry
/-- examples/tests/12-s1ap.rs:2577-2579 -/
def Links_to_log : Ty := .enumerated .u8 (some 0) (some 2) true
/-- examples/tests/12-s1ap.rs:2793-2795 -/
def M7period : Ty := .integer .u8 (some 1) (some 60) true
/-- examples/tests/12-s1ap.rs:2784-2791 -/
def M7Configuration : Ty := .sequence true 1 (.required false M7period (.required false Links_to_log (.optional 0 M7ConfigurationIE_Extensions .nil)))
/-- examples/tests/12-s1ap.rs:9138-9140 -/
def M6ConfigurationIE_Extensions_Entry : Ty := .sequence false 0 .nil
/-- examples/tests/12-s1ap.rs:9142-9149 -/
def M6ConfigurationIE_Extensions : Ty := .sequenceOf (some 1) (some 65535) false M6ConfigurationIE_Extensions_Entry
/-- examples/tests/12-s1ap.rs:2756-2758 -/
def M6delay_threshold : Ty := .enumerated .u8 (some 0) (some 11) true
/-- examples/tests/12-s1ap.rs:2774-2776 -/
def M6report_Interval : Ty := .enumerated .u8 (some 0) (some 3) true
/-- examples/tests/12-s1ap.rs:2745-2754 -/
def M6Configuration : Ty := .sequence true 2 (.required false M6report_Interval (.optional 0 M6delay_threshold (.required false Links_to_log (.optional 1 M6ConfigurationIE_Extensions .nil))))
/-- examples/tests/12-s1ap.rs:9125-9127 -/
def M5ConfigurationIE_Extensions_Entry : Ty := .sequence false 0 .nil
/-- examples/tests/12-s1ap.rs:9129-9136 -/
def M5ConfigurationIE_Extensions : Ty := .sequenceOf (some 1) (some 65535) false M5ConfigurationIE_Extensions_Entry
/-- examples/tests/12-s1ap.rs:2734-2736 -/
def M5period : Ty := .enumerated .u8 (some 0) (some 4) true
/-- examples/tests/12-s1ap.rs:2725-2732 -/
def M5Configuration : Ty := .sequence true 1 (.required false M5period (.required false Links_to_log (.optional 0 M5ConfigurationIE_Extensions .nil)))
/-- examples/tests/12-s1ap.rs:9112-9114 -/
def M4ConfigurationIE_Extensions_Entry : Ty := .sequence false 0 .nil
/-- examples/tests/12-s1ap.rs:9116-9123 -/
def M4ConfigurationIE_Extensions : Ty := .sequenceOf (some 1) (some 65535) false M4ConfigurationIE_Extensions_Entry
/-- examples/tests/12-s1ap.rs:2714-2716 -/
def M4period : Ty := .enumerated .u8 (some 0) (some 4) true
/-- examples/tests/12-s1ap.rs:2705-2712 -/
def M4Configuration : Ty := .sequence true 1 (.required false M4period (.required false Links_to_log (.optional 0 M4ConfigurationIE_Extensions .nil)))
/-- examples/tests/12-s1ap.rs:9099-9101 -/
def M3ConfigurationIE_Extensions_Entry : Ty := .sequence false 0 .nil
/-- examples/tests/12-s1ap.rs:9103-9110 -/
def M3ConfigurationIE_Extensions : Ty := .sequenceOf (some 1) (some 65535) false M3ConfigurationIE_Extensions_Entry
/-- examples/tests/12-s1ap.rs:2696-2698 -/
def M3period : Ty := .enumerated .u8 (some 0) (some 2) true
/-- examples/tests/12-s1ap.rs:2688-2694 -/
def M3Configuration : Ty := .sequence true 1 (.required false M3period (.optional 0 M3ConfigurationIE_Extensions .nil))
/-- examples/tests/12-s1ap.rs:8264-8283 -/
def ImmediateMDTIE_Extensions_EntryExtensionValue : Ty := .openType (.cons 284 false BluetoothMeasurementConfiguration (.cons 171 false M3Configuration (.cons 172 false M4Configuration (.cons 173 false M5Configuration (.cons 220 false M6Configuration (.cons 221 false M7Configuration (.cons 174 false MDT_Location_Info (.cons 285 false WLANMeasurementConfiguration .nil))))))))
/-- examples/tests/12-s1ap.rs:8285-8292 -/
def ImmediateMDTIE_Extensions_Entry : Ty := .sequence false 0 (.required true ProtocolExtensionID (.required false Criticality (.required false ImmediateMDTIE_Extensions_EntryExtensionValue .nil)))
/-- examples/tests/12-s1ap.rs:8294-8301 -/
def ImmediateMDTIE_Extensions : Ty := .sequenceOf (some 1) (some 65535) false ImmediateMDTIE_Extensions_Entry
/-- examples/tests/12-s1ap.rs:9073-9075 -/
def M1PeriodicReportingIE_Extensions_Entry : Ty := .sequence false 0 .nil
/-- examples/tests/12-s1ap.rs:9077-9084 -/
def M1PeriodicReportingIE_Extensions : Ty := .sequenceOf (some 1) (some 65535) false M1PeriodicReportingIE_Extensions_Entry
/-- examples/tests/12-s1ap.rs:3846-3848 -/
def ReportAmountMDT : Ty := .enumerated .u8 (some 0) (some 7) false
/-- examples/tests/12-s1ap.rs:3867-3869 -/
def ReportIntervalMDT : Ty := .enumerated .u8 (some 0) (some 12) false
/-- examples/tests/12-s1ap.rs:2663-2670 -/
def M1PeriodicReporting : Ty := .sequence true 1 (.required false ReportIntervalMDT (.required false ReportAmountMDT (.optional 0 M1PeriodicReportingIE_Extensions .nil)))
/-- examples/tests/12-s1ap.rs:9086-9088 -/
def M1ThresholdEventA2IE_Extensions_Entry : Ty := .sequence false 0 .nil
/-- examples/tests/12-s1ap.rs:9090-9097 -/
def M1ThresholdEventA2IE_Extensions : Ty := .sequenceOf (some 1) (some 65535) false M1ThresholdEventA2IE_Extensions_Entry
/-- examples/tests/12-s1ap.rs:4630-4632 -/
def Threshold_RSRQ : Ty := .integer .u8 (some 0) (some 34) false
/-- examples/tests/12-s1ap.rs:4626-4628 -/
def Threshold_RSRP : Ty := .integer .u8 (some 0) (some 97) false
/-- examples/tests/12-s1ap.rs:2966-2973 -/
def MeasurementThresholdA2 : Ty := .choice 0 1 true (.cons 0 false Threshold_RSRP (.cons 1 false Threshold_RSRQ .nil))
/-- examples/tests/12-s1ap.rs:2680-2686 -/
def M1ThresholdEventA2 : Ty := .sequence true 1 (.required false MeasurementThresholdA2 (.optional 0 M1ThresholdEventA2IE_Extensions .nil))
/-- examples/tests/12-s1ap.rs:2672-2674 -/
def M1ReportingTrigger : Ty := .enumerated .u8 (some 0) (some 1) true
/-- examples/tests/12-s1ap.rs:2975-2977 -/
def MeasurementsToActivate : Ty := .bitstring (some 8) (some 8) false
/-- examples/tests/12-s1ap.rs:2353-2364 -/
def ImmediateMDT : Ty := .sequence true 3 (.required false MeasurementsToActivate (.required false M1ReportingTrigger (.optional 0 M1ThresholdEventA2 (.optional 1 M1PeriodicReporting (.optional 2 ImmediateMDTIE_Extensions .nil)))))
/-- examples/tests/12-s1ap.rs:2838-2847 -/
def MDTMode : Ty := .choice 0 1 true (.cons 0 false ImmediateMDT (.cons 1 false LoggedMDT (.cons 0 true MDTMode_Extension .nil)))
/-- examples/tests/12-s1ap.rs:2811-2813 -/
def MDT_Activation : Ty := .enumerated .u8 (some 0) (some 2) true
/-- examples/tests/12-s1ap.rs:2820-2828 -/
def MDT_Configuration : Ty := .sequence true 1 (.required false MDT_Activation (.required false AreaScopeOfMDT (.required false MDTMode (.optional 0 MDT_ConfigurationIE_Extensions .nil))))
/-- examples/tests/12-s1ap.rs:11153-11164 -/
def TraceActivationIE_Extensions_EntryExtensionValue : Ty := .openType (.cons 162 false MDT_Configuration (.cons 316 false MDT_ConfigurationNR (.cons 325 false URI_Address (.cons 262 false UEAppLayerMeasConfig .nil))))
/-- examples/tests/12-s1ap.rs:11166-11173 -/
def TraceActivationIE_Extensions_Entry : Ty := .sequence false 0 (.required true ProtocolExtensionID (.required false Criticality (.required false TraceActivationIE_Extensions_EntryExtensionValue .nil)))
/-- examples/tests/12-s1ap.rs:11175-11182 -/
def TraceActivationIE_Extensions : Ty := .sequenceOf (some 1) (some 65535) false TraceActivationIE_Extensions_Entry
/-- examples/tests/12-s1ap.rs:4686-4688 -/
def TraceDepth : Ty := .enumerated .u8 (some 0) (some 5) true
/-- examples/tests/12-s1ap.rs:2461-2463 -/
def InterfacesToTrace : Ty := .bitstring (some 8) (some 8) false
/-- examples/tests/12-s1ap.rs:4675-4684 -/
def TraceActivation : Ty := .sequence true 1 (.required false E_UTRAN_Trace_ID (.required false InterfacesToTrace (.required false TraceDepth (.required false TransportLayerAddress (.optional 0 TraceActivationIE_Extensions .nil)))))
/-- examples/tests/12-s1ap.rs:4278-4280 -/
def Source_ToTarget_TransparentContainer : Ty := .octetstring none none false
/-- examples/tests/12-s1ap.rs:10674-10676 -/
def SecurityContextIE_Extensions_Entry : Ty := .sequence false 0 .nil
/-- examples/tests/12-s1ap.rs:10678-10685 -/
def SecurityContextIE_Extensions : Ty := .sequenceOf (some 1) (some 65535) false SecurityContextIE_Extensions_Entry
/-- examples/tests/12-s1ap.rs:4208-4215 -/
def SecurityKey : Ty := .bitstring (some 256) (some 256) false
/-- examples/tests/12-s1ap.rs:10670-10672 -/
def INTEGER_59 : Ty := .integer .u8 (some 0) (some 7) false
/-- examples/tests/12-s1ap.rs:4199-4206 -/
def SecurityContext : Ty := .sequence true 1 (.required false INTEGER_59 (.required false SecurityKey (.optional 0 SecurityContextIE_Extensions .nil)))
/-- examples/tests/12-s1ap.rs:3910-3912 -/
def RequestTypeAdditionalInfo : Ty := .enumerated .u8 (some 0) (some 0) true
/-- examples/tests/12-s1ap.rs:10239-10244 -/
def RequestTypeIE_Extensions_EntryExtensionValue : Ty := .openType (.cons 298 false RequestTypeAdditionalInfo .nil)
/-- examples/tests/12-s1ap.rs:10246-10253 -/
def RequestTypeIE_Extensions_Entry : Ty := .sequence false 0 (.required true ProtocolExtensionID (.required false Criticality (.required false RequestTypeIE_Extensions_EntryExtensionValue .nil)))
/-- examples/tests/12-s1ap.rs:10255-10262 -/
def RequestTypeIE_Extensions : Ty := .sequenceOf (some 1) (some 65535) false RequestTypeIE_Extensions_Entry
/-- examples/tests/12-s1ap.rs:3860-3862 -/
def ReportArea : Ty := .enumerated .u8 (some 0) (some 0) true
/-- examples/tests/12-s1ap.rs:3901-3908 -/
def RequestType : Ty := .sequence true 1 (.required false EventType (.required false ReportArea (.optional 0 RequestTypeIE_Extensions .nil)))
/-- examples/tests/12-s1ap.rs:3653-3655 -/
def ProSeUEtoNetworkRelaying : Ty := .enumerated .u8 (some 0) (some 1) true
/-- examples/tests/12-s1ap.rs:10075-10080 -/
def ProSeAuthorizedIE_Extensions_EntryExtensionValue : Ty := .openType (.cons 216 false ProSeUEtoNetworkRelaying .nil)
/-- examples/tests/12-s1ap.rs:10082-10089 -/
def ProSeAuthorizedIE_Extensions_Entry : Ty := .sequence false 0 (.required true ProtocolExtensionID (.required false Criticality (.required false ProSeAuthorizedIE_Extensions_EntryExtensionValue .nil)))
/-- examples/tests/12-s1ap.rs:10091-10098 -/
def ProSeAuthorizedIE_Extensions : Ty := .sequenceOf (some 1) (some 65535) false ProSeAuthorizedIE_Extensions_Entry
/-- examples/tests/12-s1ap.rs:3637-3639 -/
def ProSeDirectCommunication : Ty := .enumerated .u8 (some 0) (some 1) true
/-- examples/tests/12-s1ap.rs:3645-3647 -/
def ProSeDirectDiscovery : Ty := .enumerated .u8 (some 0) (some 1) true
/-- examples/tests/12-s1ap.rs:3626-3635 -/
def ProSeAuthorized : Ty := .sequence true 3 (.optional 0 ProSeDirectDiscovery (.optional 1 ProSeDirectCommunication (.optional 2 ProSeAuthorizedIE_Extensions .nil)))
/-- examples/tests/12-s1ap.rs:9711-9713 -/
def PC5QoSParametersIE_Extensions_Entry : Ty := .sequence false 0 .nil
/-- examples/tests/12-s1ap.rs:9715-9722 -/
def PC5QoSParametersIE_Extensions : Ty := .sequenceOf (some 1) (some 65535) false PC5QoSParametersIE_Extensions_Entry
/-- examples/tests/12-s1ap.rs:9698-9700 -/
def PC5QoSFlowItemIE_Extensions_Entry : Ty := .sequence false 0 .nil
/-- examples/tests/12-s1ap.rs:9702-9709 -/
def PC5QoSFlowItemIE_Extensions : Ty := .sequenceOf (some 1) (some 65535) false PC5QoSFlowItemIE_Extensions_Entry
/-- examples/tests/12-s1ap.rs:3747-3749 -/
def Range : Ty := .enumerated .u8 (some 0) (some 8) true
/-- examples/tests/12-s1ap.rs:9685-9687 -/
def PC5FlowBitRatesIE_Extensions_Entry : Ty := .sequence false 0 .nil
/-- examples/tests/12-s1ap.rs:9689-9696 -/
def PC5FlowBitRatesIE_Extensions : Ty := .sequenceOf (some 1) (some 65535) false PC5FlowBitRatesIE_Extensions_Entry
/-- examples/tests/12-s1ap.rs:3307-3314 -/
def PC5FlowBitRates : Ty := .sequence true 1 (.required false BitRate (.required false BitRate (.optional 0 PC5FlowBitRatesIE_Extensions .nil)))
/-- examples/tests/12-s1ap.rs:3316-3326 -/
def PC5QoSFlowItem : Ty := .sequence true 3 (.required false FiveQI (.optional 0 PC5FlowBitRates (.optional 1 Range (.optional 2 PC5QoSFlowItemIE_Extensions .nil))))
/-- examples/tests/12-s1ap.rs:3328-3335 -/
def PC5QoSFlowList : Ty := .sequenceOf (some 1) (some 2048) false PC5QoSFlowItem
/-- examples/tests/12-s1ap.rs:3337-3345 -/
def PC5QoSParameters : Ty := .sequence true 2 (.required false PC5QoSFlowList (.optional 0 BitRate (.optional 1 PC5QoSParametersIE_Extensions .nil)))
/-- examples/tests/12-s1ap.rs:9612-9614 -/
def NRV2XServicesAuthorizedIE_Extensions_Entry : Ty := .sequence false 0 .nil
/-- examples/tests/12-s1ap.rs:9616-9625 -/
def NRV2XServicesAuthorizedIE_Extensions : Ty := .sequenceOf (some 1) (some 65535) false NRV2XServicesAuthorizedIE_Extensions_Entry
/-- examples/tests/12-s1ap.rs:3177-3186 -/
def NRV2XServicesAuthorized : Ty := .sequence true 3 (.optional 0 VehicleUE (.optional 1 PedestrianUE (.optional 2 NRV2XServicesAuthorizedIE_Extensions .nil)))
/-- examples/tests/12-s1ap.rs:9597-9599 -/
def NRUESidelinkAggregateMaximumBitrateIE_Extensions_Entry : Ty := .sequence false 0 .nil
/-- examples/tests/12-s1ap.rs:9601-9610 -/
def NRUESidelinkAggregateMaximumBitrateIE_Extensions : Ty := .sequenceOf (some 1) (some 65535) false NRUESidelinkAggregateMaximumBitrateIE_Extensions_Entry
/-- examples/tests/12-s1ap.rs:3169-3175 -/
def NRUESidelinkAggregateMaximumBitrate : Ty := .sequence true 1 (.required false BitRate (.optional 0 NRUESidelinkAggregateMaximumBitrateIE_Extensions .nil))
/-- examples/tests/12-s1ap.rs:3053-3055 -/
def NASSecurityParameterstoE_UTRAN : Ty := .octetstring none none false
/-- examples/tests/12-s1ap.rs:2962-2964 -/
def Masked_IMEISV : Ty := .bitstring (some 64) (some 64) false
/-- examples/tests/12-s1ap.rs:2955-2957 -/
def ManagementBasedMDTAllowed : Ty := .enumerated .u8 (some 0) (some 0) true
/-- examples/tests/12-s1ap.rs:2307-2309 -/
def IAB_Authorized : Ty := .enumerated .u8 (some 0) (some 1) true
/-- examples/tests/12-s1ap.rs:7999-8076 -/
def HandoverRequestProtocolIEs_EntryValue : Ty := .openType (.cons 299 false AdditionalRRMPriorityIndex (.cons 277 false AerialUEsubscriptionInformation (.cons 271 false CE_ModeBRestricted (.cons 127 false CSG_Id (.cons 146 false CSGMembershipStatus (.cons 2 false Cause (.cons 53 false E_RABToBeSetupListHOReq (.cons 251 false EnhancedCoverageRestricted (.cons 196 false ExpectedUEBehaviour (.cons 75 false GUMMEI (.cons 41 false HandoverRestrictionList (.cons 1 false HandoverType (.cons 301 false IAB_Authorized (.cons 0 false MME_UE_S1AP_ID (.cons 158 false MME_UE_S1AP_ID (.cons 165 false ManagementBasedMDTAllowed (.cons 177 false MDTPLMNList (.cons 192 false Masked_IMEISV (.cons 136 false NASSecurityParameterstoE_UTRAN (.cons 269 false NRUESecurityCapabilities (.cons 307 false NRUESidelinkAggregateMaximumBitrate (.cons 306 false NRV2XServicesAuthorized (.cons 308 false PC5QoSParameters (.cons 283 false PendingDataIndication (.cons 195 false ProSeAuthorized (.cons 98 false RequestType (.cons 124 false SRVCCOperationPossible (.cons 40 false SecurityContext (.cons 104 false Source_ToTarget_TransparentContainer (.cons 278 false Subscription_Based_UE_DifferentiationInfo (.cons 25 false TraceActivation (.cons 314 false UERadioCapabilityID (.cons 107 false UESecurityCapabilities (.cons 248 false UESidelinkAggregateMaximumBitrate (.cons 241 false UEUserPlaneCIoTSupportIndicator (.cons 240 false V2XServicesAuthorized (.cons 66 false UEAggregateMaximumBitrate .nil)))))))))))))))))))))))))))))))))))))
/-- examples/tests/12-s1ap.rs:8078-8085 -/
def HandoverRequestProtocolIEs_Entry : Ty := .sequence false 0 (.required true ProtocolIE_ID (.required false Criticality (.required false HandoverRequestProtocolIEs_EntryValue .nil)))
/-- examples/tests/12-s1ap.rs:8087-8094 -/
def HandoverRequestProtocolIEs : Ty := .sequenceOf (some 0) (some 65535) false HandoverRequestProtocolIEs_Entry
/-- examples/tests/12-s1ap.rs:2241-2245 -/
def HandoverRequest : Ty := .sequence true 0 (.required false HandoverRequestProtocolIEs .nil)
/-- examples/tests/12-s1ap.rs:8096-8117 -/
def HandoverRequestAcknowledgeProtocolIEs_EntryValue : Ty := .openType (.cons 242 false CE_mode_B_SupportIndicator (.cons 127 false CSG_Id (.cons 145 false CellAccessMode (.cons 58 false CriticalityDiagnostics (.cons 18 false E_RABAdmittedList (.cons 19 false E_RABFailedtoSetupListHOReqAck (.cons 0 false MME_UE_S1AP_ID (.cons 123 false Target_ToSource_TransparentContainer (.cons 8 false ENB_UE_S1AP_ID .nil)))))))))
/-- examples/tests/12-s1ap.rs:8119-8126 -/
def HandoverRequestAcknowledgeProtocolIEs_Entry : Ty := .sequence false 0 (.required true ProtocolIE_ID (.required false Criticality (.required false HandoverRequestAcknowledgeProtocolIEs_EntryValue .nil)))
/-- examples/tests/12-s1ap.rs:8128-8137 -/
def HandoverRequestAcknowledgeProtocolIEs : Ty := .sequenceOf (some 0) (some 65535) false HandoverRequestAcknowledgeProtocolIEs_Entry
/-- examples/tests/12-s1ap.rs:2247-2251 -/
def HandoverRequestAcknowledge : Ty := .sequence true 0 (.required false HandoverRequestAcknowledgeProtocolIEs .nil)
/-- examples/tests/12-s1ap.rs:11055-11057 -/
def TargetNgRanNode_IDIE_Extensions_Entry : Ty := .sequence false 0 .nil
/-- examples/tests/12-s1ap.rs:11059-11066 -/
def TargetNgRanNode_IDIE_Extensions : Ty := .sequenceOf (some 1) (some 65535) false TargetNgRanNode_IDIE_Extensions_Entry
/-- examples/tests/12-s1ap.rs:4579-4586 -/
def TargetNgRanNode_ID : Ty := .sequence true 1 (.required false Global_RAN_NODE_ID (.required false FiveGSTAI (.optional 0 TargetNgRanNode_IDIE_Extensions .nil)))
/-- examples/tests/12-s1ap.rs:4566-4577 -/
def TargetID : Ty := .choice 0 2 true (.cons 0 false TargeteNB_ID (.cons 1 false TargetRNC_ID (.cons 2 false CGI (.cons 0 true TargetNgRanNode_ID .nil))))
/-- examples/tests/12-s1ap.rs:4125-4127 -/
def SRVCCHOIndication : Ty := .enumerated .u8 (some 0) (some 1) true
/-- examples/tests/12-s1ap.rs:3373-3375 -/
def PS_ServiceNotAvailable : Ty := .enumerated .u8 (some 0) (some 0) true
/-- examples/tests/12-s1ap.rs:2951-2953 -/
def MSClassmark3 : Ty := .octetstring none none false
/-- examples/tests/12-s1ap.rs:2947-2949 -/
def MSClassmark2 : Ty := .octetstring none none false
/-- examples/tests/12-s1ap.rs:8139-8170 -/
def HandoverRequiredProtocolIEs_EntryValue : Ty := .openType (.cons 127 false CSG_Id (.cons 2 false Cause (.cons 145 false CellAccessMode (.cons 79 false Direct_Forwarding_Path_Availability (.cons 1 false HandoverType (.cons 0 false MME_UE_S1AP_ID (.cons 132 false MSClassmark2 (.cons 133 false MSClassmark3 (.cons 150 false PS_ServiceNotAvailable (.cons 125 false SRVCCHOIndication (.cons 104 false Source_ToTarget_TransparentContainer (.cons 138 false Source_ToTarget_TransparentContainer (.cons 4 false TargetID (.cons 8 false ENB_UE_S1AP_ID .nil))))))))))))))
/-- examples/tests/12-s1ap.rs:8172-8179 -/
def HandoverRequiredProtocolIEs_Entry : Ty := .sequence false 0 (.required true ProtocolIE_ID (.required false Criticality (.required false HandoverRequiredProtocolIEs_EntryValue .nil)))
/-- examples/tests/12-s1ap.rs:8181-8188 -/
def HandoverRequiredProtocolIEs : Ty := .sequenceOf (some 0) (some 65535) false HandoverRequiredProtocolIEs_Entry
/-- examples/tests/12-s1ap.rs:2253-2257 -/
def HandoverRequired : Ty := .sequence true 0 (.required false HandoverRequiredProtocolIEs .nil)
/-- examples/tests/12-s1ap.rs:8225-8232 -/
def HandoverSuccessProtocolIEs_EntryValue : Ty := .openType (.cons 0 false MME_UE_S1AP_ID (.cons 8 false ENB_UE_S1AP_ID .nil))
/-- examples/tests/12-s1ap.rs:8234-8241 -/
def HandoverSuccessProtocolIEs_Entry : Ty := .sequence false 0 (.required true ProtocolIE_ID (.required false Criticality (.required false HandoverSuccessProtocolIEs_EntryValue .nil)))
/-- examples/tests/12-s1ap.rs:8243-8250 -/
def HandoverSuccessProtocolIEs : Ty := .sequenceOf (some 0) (some 65535) false HandoverSuccessProtocolIEs_Entry
/-- examples/tests/12-s1ap.rs:2275-2279 -/
def HandoverSuccess : Ty := .sequence true 0 (.required false HandoverSuccessProtocolIEs .nil)
/-- examples/tests/12-s1ap.rs:2315-2317 -/
def IAB_Node_Indication : Ty := .enumerated .u8 (some 0) (some 0) true
/-- examples/tests/12-s1ap.rs:2322-2324 -/
def IAB_Supported : Ty := .enumerated .u8 (some 0) (some 0) true
/-- examples/tests/12-s1ap.rs:2329-2331 -/
def IMSI : Ty := .octetstring (some 3) (some 8) false
/-- examples/tests/12-s1ap.rs:2333-2335 -/
def IMSvoiceEPSfallbackfrom5G : Ty := .enumerated .u8 (some 0) (some 0) true
/-- examples/tests/12-s1ap.rs:8303-8305 -/
def InformationOnRecommendedCellsAndENBsForPagingIE_Extensions_Entry : Ty := .sequence false 0 .nil
/-- examples/tests/12-s1ap.rs:8307-8316 -/
def InformationOnRecommendedCellsAndENBsForPagingIE_Extensions : Ty := .sequenceOf (some 1) (some 65535) false InformationOnRecommendedCellsAndENBsForPagingIE_Extensions_Entry
/-- examples/tests/12-s1ap.rs:10224-10226 -/
def RecommendedENBsForPagingIE_Extensions_Entry : Ty := .sequence false 0 .nil
/-- examples/tests/12-s1ap.rs:10228-10237 -/
def RecommendedENBsForPagingIE_Extensions : Ty := .sequenceOf (some 1) (some 65535) false RecommendedENBsForPagingIE_Extensions_Entry
/-- examples/tests/12-s1ap.rs:10195-10197 -/
def RecommendedENBItemIE_Extensions_Entry : Ty := .sequence false 0 .nil
/-- examples/tests/12-s1ap.rs:10199-10206 -/
def RecommendedENBItemIE_Extensions : Ty := .sequenceOf (some 1) (some 65535) false RecommendedENBItemIE_Extensions_Entry
/-- examples/tests/12-s1ap.rs:2916-2923 -/
def MMEPagingTarget : Ty := .choice 0 1 true (.cons 0 false Global_ENB_ID (.cons 1 false TAI .nil))
/-- examples/tests/12-s1ap.rs:3811-3817 -/
def RecommendedENBItem : Ty := .sequence true 1 (.required false MMEPagingTarget (.optional 0 RecommendedENBItemIE_Extensions .nil))
/-- examples/tests/12-s1ap.rs:10208-10213 -/
def RecommendedENBList_EntryValue : Ty := .openType (.cons 215 false RecommendedENBItem .nil)
/-- examples/tests/12-s1ap.rs:10215-10222 -/
def RecommendedENBList_Entry : Ty := .sequence false 0 (.required true ProtocolIE_ID (.required false Criticality (.required false RecommendedENBList_EntryValue .nil)))
/-- examples/tests/12-s1ap.rs:3819-3821 -/
def RecommendedENBList : Ty := .sequenceOf (some 1) (some 16) false RecommendedENBList_Entry
/-- examples/tests/12-s1ap.rs:3823-3829 -/
def RecommendedENBsForPaging : Ty := .sequence true 1 (.required false RecommendedENBList (.optional 0 RecommendedENBsForPagingIE_Extensions .nil))
/-- examples/tests/12-s1ap.rs:2366-2373 -/
def InformationOnRecommendedCellsAndENBsForPaging : Ty := .sequence true 1 (.required false RecommendedCellsForPaging (.required false RecommendedENBsForPaging (.optional 0 InformationOnRecommendedCellsAndENBsForPagingIE_Extensions .nil)))
/-- examples/tests/12-s1ap.rs:8318-8329 -/
def InitialContextSetupFailureProtocolIEs_EntryValue : Ty := .openType (.cons 2 false Cause (.cons 58 false CriticalityDiagnostics (.cons 0 false MME_UE_S1AP_ID (.cons 8 false ENB_UE_S1AP_ID .nil))))
/-- examples/tests/12-s1ap.rs:8331-8338 -/
def InitialContextSetupFailureProtocolIEs_Entry : Ty := .sequence false 0 (.required true ProtocolIE_ID (.required false Criticality (.required false InitialContextSetupFailureProtocolIEs_EntryValue .nil)))
/-- examples/tests/12-s1ap.rs:8340-8349 -/
def InitialContextSetupFailureProtocolIEs : Ty := .sequenceOf (some 0) (some 65535) false InitialContextSetupFailureProtocolIEs_Entry
/-- examples/tests/12-s1ap.rs:2375-2379 -/
def InitialContextSetupFailure : Ty := .sequence true 0 (.required false InitialContextSetupFailureProtocolIEs .nil)
/-- examples/tests/12-s1ap.rs:8351-8428 -/
def InitialContextSetupRequestProtocolIEs_EntryValue : Ty := .openType (.cons 187 false AdditionalCSFallbackIndicator (.cons 299 false AdditionalRRMPriorityIndex (.cons 277 false AerialUEsubscriptionInformation (.cons 271 false CE_ModeBRestricted (.cons 108 false CSFallbackIndicator (.cons 146 false CSGMembershipStatus (.cons 24 false E_RABToBeSetupListCtxtSUReq (.cons 251 false EnhancedCoverageRestricted (.cons 196 false ExpectedUEBehaviour (.cons 75 false GUMMEI (.cons 41 false HandoverRestrictionList (.cons 301 false IAB_Authorized (.cons 0 false MME_UE_S1AP_ID (.cons 158 false MME_UE_S1AP_ID (.cons 165 false ManagementBasedMDTAllowed (.cons 177 false MDTPLMNList (.cons 192 false Masked_IMEISV (.cons 269 false NRUESecurityCapabilities (.cons 307 false NRUESidelinkAggregateMaximumBitrate (.cons 306 false NRV2XServicesAuthorized (.cons 308 false PC5QoSParameters (.cons 283 false PendingDataIndication (.cons 195 false ProSeAuthorized (.cons 159 false LAI (.cons 124 false SRVCCOperationPossible (.cons 73 false SecurityKey (.cons 106 false SubscriberProfileIDforRFP (.cons 278 false Subscription_Based_UE_DifferentiationInfo (.cons 25 false TraceActivation (.cons 74 false UERadioCapability (.cons 314 false UERadioCapabilityID (.cons 107 false UESecurityCapabilities (.cons 248 false UESidelinkAggregateMaximumBitrate (.cons 241 false UEUserPlaneCIoTSupportIndicator (.cons 240 false V2XServicesAuthorized (.cons 8 false ENB_UE_S1AP_ID (.cons 66 false UEAggregateMaximumBitrate .nil)))))))))))))))))))))))))))))))))))))
/-- examples/tests/12-s1ap.rs:8430-8437 -/
def InitialContextSetupRequestProtocolIEs_Entry : Ty := .sequence false 0 (.required true ProtocolIE_ID (.required false Criticality (.required false InitialContextSetupRequestProtocolIEs_EntryValue .nil)))
/-- examples/tests/12-s1ap.rs:8439-8448 -/
def InitialContextSetupRequestProtocolIEs : Ty := .sequenceOf (some 0) (some 65535) false InitialContextSetupRequestProtocolIEs_Entry
/-- examples/tests/12-s1ap.rs:2381-2385 -/
def InitialContextSetupRequest : Ty := .sequence true 0 (.required false InitialContextSetupRequestProtocolIEs .nil)
/-- examples/tests/12-s1ap.rs:8450-8463 -/
def InitialContextSetupResponseProtocolIEs_EntryValue : Ty := .openType (.cons 58 false CriticalityDiagnostics (.cons 48 false E_RABList (.cons 51 false E_RABSetupListCtxtSURes (.cons 0 false MME_UE_S1AP_ID (.cons 8 false ENB_UE_S1AP_ID .nil)))))
/-- examples/tests/12-s1ap.rs:8465-8472 -/
def InitialContextSetupResponseProtocolIEs_Entry : Ty := .sequence false 0 (.required true ProtocolIE_ID (.required false Criticality (.required false InitialContextSetupResponseProtocolIEs_EntryValue .nil)))
/-- examples/tests/12-s1ap.rs:8474-8483 -/
def InitialContextSetupResponseProtocolIEs : Ty := .sequenceOf (some 0) (some 65535) false InitialContextSetupResponseProtocolIEs_Entry
/-- examples/tests/12-s1ap.rs:2387-2391 -/
def InitialContextSetupResponse : Ty := .sequence true 0 (.required false InitialContextSetupResponseProtocolIEs .nil)
/-- examples/tests/12-s1ap.rs:4797-4799 -/
def UE_Usage_Type : Ty := .integer .u8 (some 0) (some 255) false
/-- examples/tests/12-s1ap.rs:4752-4754 -/
def UE_Application_Layer_Measurement_Capability : Ty := .bitstring (some 8) (some 8) false
/-- examples/tests/12-s1ap.rs:3835-3837 -/
def RelayNode_Indicator : Ty := .enumerated .u8 (some 0) (some 0) true
/-- examples/tests/12-s1ap.rs:3736-3738 -/
def RRC_Establishment_Cause : Ty := .enumerated .u8 (some 0) (some 4) true
/-- examples/tests/12-s1ap.rs:8485-8534 -/
def InitialUEMessageProtocolIEs_EntryValue : Ty := .openType (.cons 242 false CE_mode_B_SupportIndicator (.cons 127 false CSG_Id (.cons 145 false CellAccessMode (.cons 250 false Coverage_Level (.cons 246 false DCN_ID (.cons 281 false EDT_Session (.cons 100 false EUTRAN_CGI (.cons 75 false GUMMEI (.cons 170 false GUMMEIType (.cons 155 false TransportLayerAddress (.cons 302 false IAB_Node_Indication (.cons 186 false LHN_ID (.cons 223 false MME_Group_ID (.cons 26 false NAS_PDU (.cons 134 false RRC_Establishment_Cause (.cons 160 false RelayNode_Indicator (.cons 96 false S_TMSI (.cons 184 false TransportLayerAddress (.cons 67 false TAI (.cons 176 false TunnelInformation (.cons 263 false UE_Application_Layer_Measurement_Capability (.cons 230 false UE_Usage_Type (.cons 8 false ENB_UE_S1AP_ID .nil)))))))))))))))))))))))
/-- examples/tests/12-s1ap.rs:8536-8543 -/
def InitialUEMessageProtocolIEs_Entry : Ty := .sequence false 0 (.required true ProtocolIE_ID (.required false Criticality (.required false InitialUEMessageProtocolIEs_EntryValue .nil)))
/-- examples/tests/12-s1ap.rs:8545-8552 -/
def InitialUEMessageProtocolIEs : Ty := .sequenceOf (some 0) (some 65535) false InitialUEMessageProtocolIEs_Entry
/-- examples/tests/12-s1ap.rs:2393-2397 -/
def InitialUEMessage : Ty := .sequence true 0 (.required false InitialUEMessageProtocolIEs .nil)
/-- examples/tests/12-s1ap.rs:12218-12229 -/
def UplinkUEAssociatedLPPaTransportProtocolIEs_EntryValue : Ty := .openType (.cons 147 false LPPa_PDU (.cons 0 false MME_UE_S1AP_ID (.cons 148 false Routing_ID (.cons 8 false ENB_UE_S1AP_ID .nil))))
/-- examples/tests/12-s1ap.rs:12231-12238 -/
def UplinkUEAssociatedLPPaTransportProtocolIEs_Entry : Ty := .sequence false 0 (.required true ProtocolIE_ID (.required false Criticality (.required false UplinkUEAssociatedLPPaTransportProtocolIEs_EntryValue .nil)))
/-- examples/tests/12-s1ap.rs:12240-12249 -/
def UplinkUEAssociatedLPPaTransportProtocolIEs : Ty := .sequenceOf (some 0) (some 65535) false UplinkUEAssociatedLPPaTransportProtocolIEs_Entry
/-- examples/tests/12-s1ap.rs:5077-5081 -/
def UplinkUEAssociatedLPPaTransport : Ty := .sequence true 0 (.required false UplinkUEAssociatedLPPaTransportProtocolIEs .nil)
/-- examples/tests/12-s1ap.rs:12146-12153 -/
def UplinkNonUEAssociatedLPPaTransportProtocolIEs_EntryValue : Ty := .openType (.cons 147 false LPPa_PDU (.cons 148 false Routing_ID .nil))
/-- examples/tests/12-s1ap.rs:12155-12162 -/
def UplinkNonUEAssociatedLPPaTransportProtocolIEs_Entry : Ty := .sequence false 0 (.required true ProtocolIE_ID (.required false Criticality (.required false UplinkNonUEAssociatedLPPaTransportProtocolIEs_EntryValue .nil)))
/-- examples/tests/12-s1ap.rs:12164-12173 -/
def UplinkNonUEAssociatedLPPaTransportProtocolIEs : Ty := .sequenceOf (some 0) (some 65535) false UplinkNonUEAssociatedLPPaTransportProtocolIEs_Entry
/-- examples/tests/12-s1ap.rs:5065-5069 -/
def UplinkNonUEAssociatedLPPaTransport : Ty := .sequence true 0 (.required false UplinkNonUEAssociatedLPPaTransportProtocolIEs .nil)
/-- examples/tests/12-s1ap.rs:12105-12126 -/
def UplinkNASTransportProtocolIEs_EntryValue : Ty := .openType (.cons 100 false EUTRAN_CGI (.cons 155 false TransportLayerAddress (.cons 186 false LHN_ID (.cons 0 false MME_UE_S1AP_ID (.cons 26 false NAS_PDU (.cons 288 false PSCellInformation (.cons 184 false TransportLayerAddress (.cons 67 false TAI (.cons 8 false ENB_UE_S1AP_ID .nil)))))))))
/-- examples/tests/12-s1ap.rs:12128-12135 -/
def UplinkNASTransportProtocolIEs_Entry : Ty := .sequence false 0 (.required true ProtocolIE_ID (.required false Criticality (.required false UplinkNASTransportProtocolIEs_EntryValue .nil)))
/-- examples/tests/12-s1ap.rs:12137-12144 -/
def UplinkNASTransportProtocolIEs : Ty := .sequenceOf (some 0) (some 65535) false UplinkNASTransportProtocolIEs_Entry
/-- examples/tests/12-s1ap.rs:5059-5063 -/
def UplinkNASTransport : Ty := .sequence true 0 (.required false UplinkNASTransportProtocolIEs .nil)
/-- examples/tests/12-s1ap.rs:5199-5201 -/
def WarningType : Ty := .octetstring (some 2) (some 2) false
/-- examples/tests/12-s1ap.rs:5190-5197 -/
def WarningSecurityInfo : Ty := .octetstring (some 50) (some 50) false
/-- examples/tests/12-s1ap.rs:5181-5188 -/
def WarningMessageContents : Ty := .octetstring (some 1) (some 9600) false
/-- examples/tests/12-s1ap.rs:4537-4544 -/
def TAIListforWarning : Ty := .sequenceOf (some 1) (some 65535) false TAI
/-- examples/tests/12-s1ap.rs:5170-5179 -/
def WarningAreaList : Ty := .choice 0 2 true (.cons 0 false ECGIList (.cons 1 false TAIListforWarning (.cons 2 false EmergencyAreaIDList .nil)))
/-- examples/tests/12-s1ap.rs:5161-5168 -/
def WarningAreaCoordinates : Ty := .octetstring (some 1) (some 1024) false
/-- examples/tests/12-s1ap.rs:4217-4219 -/
def SerialNumber : Ty := .bitstring (some 16) (some 16) false
/-- examples/tests/12-s1ap.rs:3842-3844 -/
def RepetitionPeriod : Ty := .integer .u16 (some 0) (some 4095) false
/-- examples/tests/12-s1ap.rs:3264-3266 -/
def NumberofBroadcastRequest : Ty := .integer .u16 (some 0) (some 65535) false
/-- examples/tests/12-s1ap.rs:2979-2981 -/
def MessageIdentifier : Ty := .bitstring (some 16) (some 16) false
/-- examples/tests/12-s1ap.rs:12335-12362 -/
def WriteReplaceWarningRequestProtocolIEs_EntryValue : Ty := .openType (.cons 142 false ConcurrentWarningMessageIndicator (.cons 118 false DataCodingScheme (.cons 144 false ExtendedRepetitionPeriod (.cons 111 false MessageIdentifier (.cons 115 false NumberofBroadcastRequest (.cons 114 false RepetitionPeriod (.cons 112 false SerialNumber (.cons 286 false WarningAreaCoordinates (.cons 113 false WarningAreaList (.cons 119 false WarningMessageContents (.cons 117 false WarningSecurityInfo (.cons 116 false WarningType .nil))))))))))))
/-- examples/tests/12-s1ap.rs:12364-12371 -/
def WriteReplaceWarningRequestProtocolIEs_Entry : Ty := .sequence false 0 (.required true ProtocolIE_ID (.required false Criticality (.required false WriteReplaceWarningRequestProtocolIEs_EntryValue .nil)))
/-- examples/tests/12-s1ap.rs:12373-12382 -/
def WriteReplaceWarningRequestProtocolIEs : Ty := .sequenceOf (some 0) (some 65535) false WriteReplaceWarningRequestProtocolIEs_Entry
/-- examples/tests/12-s1ap.rs:5203-5207 -/
def WriteReplaceWarningRequest : Ty := .sequence true 0 (.required false WriteReplaceWarningRequestProtocolIEs .nil)
/-- examples/tests/12-s1ap.rs:12175-12196 -/
def UplinkS1cdma2000tunnellingProtocolIEs_EntryValue : Ty := .openType (.cons 140 false EUTRANRoundTripDelayEstimationInfo (.cons 0 false MME_UE_S1AP_ID (.cons 84 false Cdma2000HORequiredIndication (.cons 97 false Cdma2000OneXRAND (.cons 102 false Cdma2000OneXSRVCCInfo (.cons 70 false Cdma2000PDU (.cons 71 false Cdma2000RATType (.cons 72 false Cdma2000SectorID (.cons 8 false ENB_UE_S1AP_ID .nil)))))))))
/-- examples/tests/12-s1ap.rs:12198-12205 -/
def UplinkS1cdma2000tunnellingProtocolIEs_Entry : Ty := .sequence false 0 (.required true ProtocolIE_ID (.required false Criticality (.required false UplinkS1cdma2000tunnellingProtocolIEs_EntryValue .nil)))
/-- examples/tests/12-s1ap.rs:12207-12216 -/
def UplinkS1cdma2000tunnellingProtocolIEs : Ty := .sequenceOf (some 0) (some 65535) false UplinkS1cdma2000tunnellingProtocolIEs_Entry
/-- examples/tests/12-s1ap.rs:5071-5075 -/
def UplinkS1cdma2000tunnelling : Ty := .sequence true 0 (.required false UplinkS1cdma2000tunnellingProtocolIEs .nil)
/-- examples/tests/12-s1ap.rs:11973-11984 -/
def UERadioCapabilityMatchRequestProtocolIEs_EntryValue : Ty := .openType (.cons 0 false MME_UE_S1AP_ID (.cons 74 false UERadioCapability (.cons 314 false UERadioCapabilityID (.cons 8 false ENB_UE_S1AP_ID .nil))))
/-- examples/tests/12-s1ap.rs:11986-11993 -/
def UERadioCapabilityMatchRequestProtocolIEs_Entry : Ty := .sequence false 0 (.required true ProtocolIE_ID (.required false Criticality (.required false UERadioCapabilityMatchRequestProtocolIEs_EntryValue .nil)))
/-- examples/tests/12-s1ap.rs:11995-12004 -/
def UERadioCapabilityMatchRequestProtocolIEs : Ty := .sequenceOf (some 0) (some 65535) false UERadioCapabilityMatchRequestProtocolIEs_Entry
/-- examples/tests/12-s1ap.rs:4986-4990 -/
def UERadioCapabilityMatchRequest : Ty := .sequence true 0 (.required false UERadioCapabilityMatchRequestProtocolIEs .nil)
/-- examples/tests/12-s1ap.rs:11915-11920 -/
def UERadioCapabilityIDMappingRequestProtocolIEs_EntryValue : Ty := .openType (.cons 314 false UERadioCapabilityID .nil)
/-- examples/tests/12-s1ap.rs:11922-11929 -/
def UERadioCapabilityIDMappingRequestProtocolIEs_Entry : Ty := .sequence false 0 (.required true ProtocolIE_ID (.required false Criticality (.required false UERadioCapabilityIDMappingRequestProtocolIEs_EntryValue .nil)))
/-- examples/tests/12-s1ap.rs:11931-11940 -/
def UERadioCapabilityIDMappingRequestProtocolIEs : Ty := .sequenceOf (some 0) (some 65535) false UERadioCapabilityIDMappingRequestProtocolIEs_Entry
/-- examples/tests/12-s1ap.rs:4974-4978 -/
def UERadioCapabilityIDMappingRequest : Ty := .sequence true 0 (.required false UERadioCapabilityIDMappingRequestProtocolIEs .nil)
/-- examples/tests/12-s1ap.rs:11882-11895 -/
def UEInformationTransferProtocolIEs_EntryValue : Ty := .openType (.cons 283 false PendingDataIndication (.cons 96 false S_TMSI (.cons 278 false Subscription_Based_UE_DifferentiationInfo (.cons 252 false E_RABLevelQoSParameters (.cons 74 false UERadioCapability .nil)))))
/-- examples/tests/12-s1ap.rs:11897-11904 -/
def UEInformationTransferProtocolIEs_Entry : Ty := .sequence false 0 (.required true ProtocolIE_ID (.required false Criticality (.required false UEInformationTransferProtocolIEs_EntryValue .nil)))
/-- examples/tests/12-s1ap.rs:11906-11913 -/
def UEInformationTransferProtocolIEs : Ty := .sequenceOf (some 0) (some 65535) false UEInformationTransferProtocolIEs_Entry
/-- examples/tests/12-s1ap.rs:4947-4951 -/
def UEInformationTransfer : Ty := .sequence true 0 (.required false UEInformationTransferProtocolIEs .nil)
/-- examples/tests/12-s1ap.rs:4642-4644 -/
def TimeSinceSecondaryNodeRelease : Ty := .octetstring (some 4) (some 4) false
/-- examples/tests/12-s1ap.rs:11814-11831 -/
def UEContextSuspendRequestProtocolIEs_EntryValue : Ty := .openType (.cons 212 false CellIdentifierAndCELevelForCECapableUEs (.cons 213 false InformationOnRecommendedCellsAndENBsForPaging (.cons 0 false MME_UE_S1AP_ID (.cons 264 false SecondaryRATDataUsageReportList (.cons 297 false TimeSinceSecondaryNodeRelease (.cons 189 false UserLocationInformation (.cons 8 false ENB_UE_S1AP_ID .nil)))))))
/-- examples/tests/12-s1ap.rs:11833-11840 -/
def UEContextSuspendRequestProtocolIEs_Entry : Ty := .sequence false 0 (.required true ProtocolIE_ID (.required false Criticality (.required false UEContextSuspendRequestProtocolIEs_EntryValue .nil)))
/-- examples/tests/12-s1ap.rs:11842-11849 -/
def UEContextSuspendRequestProtocolIEs : Ty := .sequenceOf (some 0) (some 65535) false UEContextSuspendRequestProtocolIEs_Entry
/-- examples/tests/12-s1ap.rs:4931-4935 -/
def UEContextSuspendRequest : Ty := .sequence true 0 (.required false UEContextSuspendRequestProtocolIEs .nil)
/-- examples/tests/12-s1ap.rs:11748-11759 -/
def UEContextResumeRequestProtocolIEs_EntryValue : Ty := .openType (.cons 235 false E_RABFailedToResumeListResumeReq (.cons 0 false MME_UE_S1AP_ID (.cons 245 false RRC_Establishment_Cause (.cons 8 false ENB_UE_S1AP_ID .nil))))
/-- examples/tests/12-s1ap.rs:11761-11768 -/
def UEContextResumeRequestProtocolIEs_Entry : Ty := .sequence false 0 (.required true ProtocolIE_ID (.required false Criticality (.required false UEContextResumeRequestProtocolIEs_EntryValue .nil)))
/-- examples/tests/12-s1ap.rs:11770-11777 -/
def UEContextResumeRequestProtocolIEs : Ty := .sequenceOf (some 0) (some 65535) false UEContextResumeRequestProtocolIEs_Entry
/-- examples/tests/12-s1ap.rs:4919-4923 -/
def UEContextResumeRequest : Ty := .sequence true 0 (.required false UEContextResumeRequestProtocolIEs .nil)
/-- examples/tests/12-s1ap.rs:11684-11697 -/
def UEContextReleaseRequestProtocolIEs_EntryValue : Ty := .openType (.cons 2 false Cause (.cons 164 false GWContextReleaseIndication (.cons 0 false MME_UE_S1AP_ID (.cons 264 false SecondaryRATDataUsageReportList (.cons 8 false ENB_UE_S1AP_ID .nil)))))
/-- examples/tests/12-s1ap.rs:11699-11706 -/
def UEContextReleaseRequestProtocolIEs_Entry : Ty := .sequence false 0 (.required true ProtocolIE_ID (.required false Criticality (.required false UEContextReleaseRequestProtocolIEs_EntryValue .nil)))
/-- examples/tests/12-s1ap.rs:11708-11715 -/
def UEContextReleaseRequestProtocolIEs : Ty := .sequenceOf (some 0) (some 65535) false UEContextReleaseRequestProtocolIEs_Entry
/-- examples/tests/12-s1ap.rs:4907-4911 -/
def UEContextReleaseRequest : Ty := .sequence true 0 (.required false UEContextReleaseRequestProtocolIEs .nil)
/-- examples/tests/12-s1ap.rs:11257-11259 -/
def UE_S1AP_ID_pairIE_Extensions_Entry : Ty := .sequence false 0 .nil
/-- examples/tests/12-s1ap.rs:11261-11268 -/
def UE_S1AP_ID_pairIE_Extensions : Ty := .sequenceOf (some 1) (some 65535) false UE_S1AP_ID_pairIE_Extensions_Entry
/-- examples/tests/12-s1ap.rs:4779-4786 -/
def UE_S1AP_ID_pair : Ty := .sequence true 1 (.required false MME_UE_S1AP_ID (.required false ENB_UE_S1AP_ID (.optional 0 UE_S1AP_ID_pairIE_Extensions .nil)))
/-- examples/tests/12-s1ap.rs:4788-4795 -/
def UE_S1AP_IDs : Ty := .choice 0 1 true (.cons 0 false UE_S1AP_ID_pair (.cons 1 false MME_UE_S1AP_ID .nil))
/-- examples/tests/12-s1ap.rs:11618-11625 -/
def UEContextReleaseCommandProtocolIEs_EntryValue : Ty := .openType (.cons 2 false Cause (.cons 99 false UE_S1AP_IDs .nil))
/-- examples/tests/12-s1ap.rs:11627-11634 -/
def UEContextReleaseCommandProtocolIEs_Entry : Ty := .sequence false 0 (.required true ProtocolIE_ID (.required false Criticality (.required false UEContextReleaseCommandProtocolIEs_EntryValue .nil)))
/-- examples/tests/12-s1ap.rs:11636-11643 -/
def UEContextReleaseCommandProtocolIEs : Ty := .sequenceOf (some 0) (some 65535) false UEContextReleaseCommandProtocolIEs_Entry
/-- examples/tests/12-s1ap.rs:4895-4899 -/
def UEContextReleaseCommand : Ty := .sequence true 0 (.required false UEContextReleaseCommandProtocolIEs .nil)
/-- examples/tests/12-s1ap.rs:11485-11494 -/
def UEContextModificationIndicationProtocolIEs_EntryValue : Ty := .openType (.cons 226 false CSGMembershipInfo (.cons 0 false MME_UE_S1AP_ID (.cons 8 false ENB_UE_S1AP_ID .nil)))
/-- examples/tests/12-s1ap.rs:11496-11503 -/
def UEContextModificationIndicationProtocolIEs_Entry : Ty := .sequence false 0 (.required true ProtocolIE_ID (.required false Criticality (.required false UEContextModificationIndicationProtocolIEs_EntryValue .nil)))
/-- examples/tests/12-s1ap.rs:11505-11514 -/
def UEContextModificationIndicationProtocolIEs : Ty := .sequenceOf (some 0) (some 65535) false UEContextModificationIndicationProtocolIEs_Entry
/-- examples/tests/12-s1ap.rs:4877-4881 -/
def UEContextModificationIndication : Ty := .sequence true 0 (.required false UEContextModificationIndicationProtocolIEs .nil)
/-- examples/tests/12-s1ap.rs:4133-4135 -/
def SRVCCOperationNotPossible : Ty := .enumerated .u8 (some 0) (some 0) true
/-- examples/tests/12-s1ap.rs:11516-11565 -/
def UEContextModificationRequestProtocolIEs_EntryValue : Ty := .openType (.cons 187 false AdditionalCSFallbackIndicator (.cons 299 false AdditionalRRMPriorityIndex (.cons 277 false AerialUEsubscriptionInformation (.cons 108 false CSFallbackIndicator (.cons 146 false CSGMembershipStatus (.cons 301 false IAB_Authorized (.cons 0 false MME_UE_S1AP_ID (.cons 269 false NRUESecurityCapabilities (.cons 307 false NRUESidelinkAggregateMaximumBitrate (.cons 306 false NRV2XServicesAuthorized (.cons 308 false PC5QoSParameters (.cons 195 false ProSeAuthorized (.cons 159 false LAI (.cons 243 false SRVCCOperationNotPossible (.cons 124 false SRVCCOperationPossible (.cons 73 false SecurityKey (.cons 106 false SubscriberProfileIDforRFP (.cons 314 false UERadioCapabilityID (.cons 107 false UESecurityCapabilities (.cons 248 false UESidelinkAggregateMaximumBitrate (.cons 240 false V2XServicesAuthorized (.cons 8 false ENB_UE_S1AP_ID (.cons 66 false UEAggregateMaximumBitrate .nil)))))))))))))))))))))))
/-- examples/tests/12-s1ap.rs:11567-11574 -/
def UEContextModificationRequestProtocolIEs_Entry : Ty := .sequence false 0 (.required true ProtocolIE_ID (.required false Criticality (.required false UEContextModificationRequestProtocolIEs_EntryValue .nil)))
/-- examples/tests/12-s1ap.rs:11576-11585 -/
def UEContextModificationRequestProtocolIEs : Ty := .sequenceOf (some 0) (some 65535) false UEContextModificationRequestProtocolIEs_Entry
/-- examples/tests/12-s1ap.rs:4883-4887 -/
def UEContextModificationRequest : Ty := .sequence true 0 (.required false UEContextModificationRequestProtocolIEs .nil)
/-- examples/tests/12-s1ap.rs:4966-4968 -/
def UERadioCapabilityForPaging : Ty := .octetstring none none false
/-- examples/tests/12-s1ap.rs:2532-2534 -/
def LTE_M_Indication : Ty := .enumerated .u8 (some 0) (some 0) true
/-- examples/tests/12-s1ap.rs:11380-11397 -/
def UECapabilityInfoIndicationProtocolIEs_EntryValue : Ty := .openType (.cons 272 false LTE_M_Indication (.cons 0 false MME_UE_S1AP_ID (.cons 263 false UE_Application_Layer_Measurement_Capability (.cons 74 false UERadioCapability (.cons 315 false UERadioCapability (.cons 198 false UERadioCapabilityForPaging (.cons 8 false ENB_UE_S1AP_ID .nil)))))))
/-- examples/tests/12-s1ap.rs:11399-11406 -/
def UECapabilityInfoIndicationProtocolIEs_Entry : Ty := .sequence false 0 (.required true ProtocolIE_ID (.required false Criticality (.required false UECapabilityInfoIndicationProtocolIEs_EntryValue .nil)))
/-- examples/tests/12-s1ap.rs:11408-11417 -/
def UECapabilityInfoIndicationProtocolIEs : Ty := .sequenceOf (some 0) (some 65535) false UECapabilityInfoIndicationProtocolIEs_Entry
/-- examples/tests/12-s1ap.rs:4852-4856 -/
def UECapabilityInfoIndication : Ty := .sequence true 0 (.required false UECapabilityInfoIndicationProtocolIEs .nil)
/-- examples/tests/12-s1ap.rs:11215-11224 -/
def TraceStartProtocolIEs_EntryValue : Ty := .openType (.cons 0 false MME_UE_S1AP_ID (.cons 25 false TraceActivation (.cons 8 false ENB_UE_S1AP_ID .nil)))
/-- examples/tests/12-s1ap.rs:11226-11233 -/
def TraceStartProtocolIEs_Entry : Ty := .sequence false 0 (.required true ProtocolIE_ID (.required false Criticality (.required false TraceStartProtocolIEs_EntryValue .nil)))
/-- examples/tests/12-s1ap.rs:11235-11242 -/
def TraceStartProtocolIEs : Ty := .sequenceOf (some 0) (some 65535) false TraceStartProtocolIEs_Entry
/-- examples/tests/12-s1ap.rs:4704-4708 -/
def TraceStart : Ty := .sequence true 0 (.required false TraceStartProtocolIEs .nil)
/-- examples/tests/12-s1ap.rs:11184-11195 -/
def TraceFailureIndicationProtocolIEs_EntryValue : Ty := .openType (.cons 2 false Cause (.cons 86 false E_UTRAN_Trace_ID (.cons 0 false MME_UE_S1AP_ID (.cons 8 false ENB_UE_S1AP_ID .nil))))
/-- examples/tests/12-s1ap.rs:11197-11204 -/
def TraceFailureIndicationProtocolIEs_Entry : Ty := .sequence false 0 (.required true ProtocolIE_ID (.required false Criticality (.required false TraceFailureIndicationProtocolIEs_EntryValue .nil)))
/-- examples/tests/12-s1ap.rs:11206-11213 -/
def TraceFailureIndicationProtocolIEs : Ty := .sequenceOf (some 0) (some 65535) false TraceFailureIndicationProtocolIEs_Entry
/-- examples/tests/12-s1ap.rs:4698-4702 -/
def TraceFailureIndication : Ty := .sequence true 0 (.required false TraceFailureIndicationProtocolIEs .nil)
/-- examples/tests/12-s1ap.rs:10602-10617 -/
def SecondaryRATDataUsageReportProtocolIEs_EntryValue : Ty := .openType (.cons 266 false HandoverFlag (.cons 0 false MME_UE_S1AP_ID (.cons 264 false SecondaryRATDataUsageReportList (.cons 297 false TimeSinceSecondaryNodeRelease (.cons 189 false UserLocationInformation (.cons 8 false ENB_UE_S1AP_ID .nil))))))
/-- examples/tests/12-s1ap.rs:10619-10626 -/
def SecondaryRATDataUsageReportProtocolIEs_Entry : Ty := .sequence false 0 (.required true ProtocolIE_ID (.required false Criticality (.required false SecondaryRATDataUsageReportProtocolIEs_EntryValue .nil)))
/-- examples/tests/12-s1ap.rs:10628-10637 -/
def SecondaryRATDataUsageReportProtocolIEs : Ty := .sequenceOf (some 0) (some 65535) false SecondaryRATDataUsageReportProtocolIEs_Entry
/-- examples/tests/12-s1ap.rs:4160-4164 -/
def SecondaryRATDataUsageReport : Ty := .sequence true 0 (.required false SecondaryRATDataUsageReportProtocolIEs .nil)
/-- examples/tests/12-s1ap.rs:4772-4774 -/
def UE_RetentionInformation : Ty := .enumerated .u8 (some 0) (some 0) true
/-- examples/tests/12-s1ap.rs:10418-10437 -/
def S1SetupRequestProtocolIEs_EntryValue : Ty := .openType (.cons 128 false CSG_IdList (.cons 291 false ConnectedengNBList (.cons 137 false PagingDRX (.cons 59 false Global_ENB_ID (.cons 234 false NB_IoT_DefaultPagingDRX (.cons 64 false SupportedTAs (.cons 228 false UE_RetentionInformation (.cons 60 false ENBname .nil))))))))
/-- examples/tests/12-s1ap.rs:10439-10446 -/
def S1SetupRequestProtocolIEs_Entry : Ty := .sequence false 0 (.required true ProtocolIE_ID (.required false Criticality (.required false S1SetupRequestProtocolIEs_EntryValue .nil)))
/-- examples/tests/12-s1ap.rs:10448-10455 -/
def S1SetupRequestProtocolIEs : Ty := .sequenceOf (some 0) (some 65535) false S1SetupRequestProtocolIEs_Entry
/-- examples/tests/12-s1ap.rs:3996-4000 -/
def S1SetupRequest : Ty := .sequence true 0 (.required false S1SetupRequestProtocolIEs .nil)
/-- examples/tests/12-s1ap.rs:10351-10356 -/
def RetrieveUEInformationProtocolIEs_EntryValue : Ty := .openType (.cons 96 false S_TMSI .nil)
/-- examples/tests/12-s1ap.rs:10358-10365 -/
def RetrieveUEInformationProtocolIEs_Entry : Ty := .sequence false 0 (.required true ProtocolIE_ID (.required false Criticality (.required false RetrieveUEInformationProtocolIEs_EntryValue .nil)))
/-- examples/tests/12-s1ap.rs:10367-10374 -/
def RetrieveUEInformationProtocolIEs : Ty := .sequenceOf (some 0) (some 65535) false RetrieveUEInformationProtocolIEs_Entry
/-- examples/tests/12-s1ap.rs:3960-3964 -/
def RetrieveUEInformation : Ty := .sequence true 0 (.required false RetrieveUEInformationProtocolIEs .nil)
/-- examples/tests/12-s1ap.rs:11270-11272 -/
def UE_associatedLogicalS1_ConnectionItemIE_Extensions_Entry : Ty := .sequence false 0 .nil
/-- examples/tests/12-s1ap.rs:11274-11283 -/
def UE_associatedLogicalS1_ConnectionItemIE_Extensions : Ty := .sequenceOf (some 1) (some 65535) false UE_associatedLogicalS1_ConnectionItemIE_Extensions_Entry
/-- examples/tests/12-s1ap.rs:4801-4810 -/
def UE_associatedLogicalS1_ConnectionItem : Ty := .sequence true 3 (.optional 0 MME_UE_S1AP_ID (.optional 1 ENB_UE_S1AP_ID (.optional 2 UE_associatedLogicalS1_ConnectionItemIE_Extensions .nil)))
/-- examples/tests/12-s1ap.rs:11285-11290 -/
def UE_associatedLogicalS1_ConnectionListRes_EntryValue : Ty := .openType (.cons 91 false UE_associatedLogicalS1_ConnectionItem .nil)
/-- examples/tests/12-s1ap.rs:11292-11299 -/
def UE_associatedLogicalS1_ConnectionListRes_Entry : Ty := .sequence false 0 (.required true ProtocolIE_ID (.required false Criticality (.required false UE_associatedLogicalS1_ConnectionListRes_EntryValue .nil)))
/-- examples/tests/12-s1ap.rs:4812-4821 -/
def UE_associatedLogicalS1_ConnectionListRes : Ty := .sequenceOf (some 1) (some 256) false UE_associatedLogicalS1_ConnectionListRes_Entry
/-- examples/tests/12-s1ap.rs:3944-3946 -/
def ResetAll : Ty := .enumerated .u8 (some 0) (some 0) true
/-- examples/tests/12-s1ap.rs:3951-3958 -/
def ResetType : Ty := .choice 0 1 true (.cons 0 false ResetAll (.cons 1 false UE_associatedLogicalS1_ConnectionListRes .nil))
/-- examples/tests/12-s1ap.rs:10297-10304 -/
def ResetProtocolIEs_EntryValue : Ty := .openType (.cons 2 false Cause (.cons 92 false ResetType .nil))
/-- examples/tests/12-s1ap.rs:10306-10313 -/
def ResetProtocolIEs_Entry : Ty := .sequence false 0 (.required true ProtocolIE_ID (.required false Criticality (.required false ResetProtocolIEs_EntryValue .nil)))
/-- examples/tests/12-s1ap.rs:10315-10322 -/
def ResetProtocolIEs : Ty := .sequenceOf (some 0) (some 65535) false ResetProtocolIEs_Entry
/-- examples/tests/12-s1ap.rs:3932-3936 -/
def Reset : Ty := .sequence true 0 (.required false ResetProtocolIEs .nil)
/-- examples/tests/12-s1ap.rs:10264-10277 -/
def RerouteNASRequestProtocolIEs_EntryValue : Ty := .openType (.cons 224 false Additional_GUTI (.cons 223 false MME_Group_ID (.cons 0 false MME_UE_S1AP_ID (.cons 230 false UE_Usage_Type (.cons 8 false ENB_UE_S1AP_ID .nil)))))
/-- examples/tests/12-s1ap.rs:10279-10286 -/
def RerouteNASRequestProtocolIEs_Entry : Ty := .sequence false 0 (.required true ProtocolIE_ID (.required false Criticality (.required false RerouteNASRequestProtocolIEs_EntryValue .nil)))
/-- examples/tests/12-s1ap.rs:10288-10295 -/
def RerouteNASRequestProtocolIEs : Ty := .sequenceOf (some 0) (some 65535) false RerouteNASRequestProtocolIEs_Entry
/-- examples/tests/12-s1ap.rs:3926-3930 -/
def RerouteNASRequest : Ty := .sequence true 0 (.required false RerouteNASRequestProtocolIEs .nil)
/-- examples/tests/12-s1ap.rs:10062-10064 -/
def PrivateMessagePrivateIEs_Entry : Ty := .sequence false 0 .nil
/-- examples/tests/12-s1ap.rs:10066-10073 -/
def PrivateMessagePrivateIEs : Ty := .sequenceOf (some 1) (some 65535) false PrivateMessagePrivateIEs_Entry
/-- examples/tests/12-s1ap.rs:3620-3624 -/
def PrivateMessage : Ty := .sequence true 0 (.required false PrivateMessagePrivateIEs .nil)
/-- examples/tests/12-s1ap.rs:9895-9928 -/
def PathSwitchRequestProtocolIEs_EntryValue : Ty := .openType (.cons 127 false CSG_Id (.cons 146 false CSGMembershipStatus (.cons 145 false CellAccessMode (.cons 22 false E_RABToBeSwitchedDLList (.cons 100 false EUTRAN_CGI (.cons 186 false LHN_ID (.cons 269 false NRUESecurityCapabilities (.cons 288 false PSCellInformation (.cons 245 false RRC_Establishment_Cause (.cons 157 false GUMMEI (.cons 88 false MME_UE_S1AP_ID (.cons 67 false TAI (.cons 176 false TunnelInformation (.cons 107 false UESecurityCapabilities (.cons 8 false ENB_UE_S1AP_ID .nil)))))))))))))))
/-- examples/tests/12-s1ap.rs:9930-9937 -/
def PathSwitchRequestProtocolIEs_Entry : Ty := .sequence false 0 (.required true ProtocolIE_ID (.required false Criticality (.required false PathSwitchRequestProtocolIEs_EntryValue .nil)))
/-- examples/tests/12-s1ap.rs:9939-9946 -/
def PathSwitchRequestProtocolIEs : Ty := .sequenceOf (some 0) (some 65535) false PathSwitchRequestProtocolIEs_Entry
/-- examples/tests/12-s1ap.rs:3537-3541 -/
def PathSwitchRequest : Ty := .sequence true 0 (.required false PathSwitchRequestProtocolIEs .nil)
/-- examples/tests/12-s1ap.rs:12320-12322 -/
def WUS_Assistance_InformationIE_Extensions_Entry : Ty := .sequence false 0 .nil
/-- examples/tests/12-s1ap.rs:12324-12333 -/
def WUS_Assistance_InformationIE_Extensions : Ty := .sequenceOf (some 1) (some 65535) false WUS_Assistance_InformationIE_Extensions_Entry
/-- examples/tests/12-s1ap.rs:3488-3490 -/
def PagingProbabilityInformation : Ty := .enumerated .u8 (some 0) (some 20) true
/-- examples/tests/12-s1ap.rs:5153-5159 -/
def WUS_Assistance_Information : Ty := .sequence true 1 (.required false PagingProbabilityInformation (.optional 0 WUS_Assistance_InformationIE_Extensions .nil))
/-- examples/tests/12-s1ap.rs:4953-4960 -/
def UEPagingID : Ty := .choice 0 1 true (.cons 0 false S_TMSI (.cons 1 false IMSI .nil))
/-- examples/tests/12-s1ap.rs:4943-4945 -/
def UEIdentityIndexValue : Ty := .bitstring (some 10) (some 10) false
/-- examples/tests/12-s1ap.rs:11026-11028 -/
def TAIItemIE_Extensions_Entry : Ty := .sequence false 0 .nil
/-- examples/tests/12-s1ap.rs:11030-11037 -/
def TAIItemIE_Extensions : Ty := .sequenceOf (some 1) (some 65535) false TAIItemIE_Extensions_Entry
/-- examples/tests/12-s1ap.rs:4503-4509 -/
def TAIItem : Ty := .sequence true 1 (.required false TAI (.optional 0 TAIItemIE_Extensions .nil))
/-- examples/tests/12-s1ap.rs:11039-11044 -/
def TAIList_EntryValue : Ty := .openType (.cons 47 false TAIItem .nil)
/-- examples/tests/12-s1ap.rs:11046-11053 -/
def TAIList_Entry : Ty := .sequence false 0 (.required true ProtocolIE_ID (.required false Criticality (.required false TAIList_EntryValue .nil)))
/-- examples/tests/12-s1ap.rs:4511-4518 -/
def TAIList : Ty := .sequenceOf (some 1) (some 256) false TAIList_Entry
/-- examples/tests/12-s1ap.rs:3474-3476 -/
def PagingPriority : Ty := .enumerated .u8 (some 0) (some 7) true
/-- examples/tests/12-s1ap.rs:9867-9869 -/
def Paging_eDRXInformationIE_Extensions_Entry : Ty := .sequence false 0 .nil
/-- examples/tests/12-s1ap.rs:9871-9878 -/
def Paging_eDRXInformationIE_Extensions : Ty := .sequenceOf (some 1) (some 65535) false Paging_eDRXInformationIE_Extensions_Entry
/-- examples/tests/12-s1ap.rs:3515-3517 -/
def PagingTimeWindow : Ty := .enumerated .u8 (some 0) (some 15) true
/-- examples/tests/12-s1ap.rs:3419-3421 -/
def Paging_eDRX_Cycle : Ty := .enumerated .u8 (some 0) (some 13) true
/-- examples/tests/12-s1ap.rs:3439-3447 -/
def Paging_eDRXInformation : Ty := .sequence true 2 (.required false Paging_eDRX_Cycle (.optional 0 PagingTimeWindow (.optional 1 Paging_eDRXInformationIE_Extensions .nil)))
/-- examples/tests/12-s1ap.rs:3135-3137 -/
def NB_IoT_UEIdentityIndexValue : Ty := .bitstring (some 12) (some 12) false
/-- examples/tests/12-s1ap.rs:3097-3099 -/
def NB_IoT_PagingDRX : Ty := .enumerated .u8 (some 0) (some 5) true
/-- examples/tests/12-s1ap.rs:9541-9543 -/
def NB_IoT_Paging_eDRXInformationIE_Extensions_Entry : Ty := .sequence false 0 .nil
/-- examples/tests/12-s1ap.rs:9545-9554 -/
def NB_IoT_Paging_eDRXInformationIE_Extensions : Ty := .sequenceOf (some 1) (some 65535) false NB_IoT_Paging_eDRXInformationIE_Extensions_Entry
/-- examples/tests/12-s1ap.rs:3109-3111 -/
def NB_IoT_PagingTimeWindow : Ty := .enumerated .u8 (some 0) (some 15) true
/-- examples/tests/12-s1ap.rs:3067-3069 -/
def NB_IoT_Paging_eDRX_Cycle : Ty := .enumerated .u8 (some 0) (some 13) true
/-- examples/tests/12-s1ap.rs:3087-3095 -/
def NB_IoT_Paging_eDRXInformation : Ty := .sequence true 2 (.required false NB_IoT_Paging_eDRX_Cycle (.optional 0 NB_IoT_PagingTimeWindow (.optional 1 NB_IoT_Paging_eDRXInformationIE_Extensions .nil)))
/-- examples/tests/12-s1ap.rs:9808-9847 -/
def PagingProtocolIEs_EntryValue : Ty := .openType (.cons 211 false AssistanceDataForPaging (.cons 271 false CE_ModeBRestricted (.cons 109 false CNDomain (.cons 128 false CSG_IdList (.cons 304 false DataSize (.cons 251 false EnhancedCoverageRestricted (.cons 239 false NB_IoT_Paging_eDRXInformation (.cons 324 false NB_IoT_PagingDRX (.cons 244 false NB_IoT_UEIdentityIndexValue (.cons 227 false Paging_eDRXInformation (.cons 151 false PagingPriority (.cons 46 false TAIList (.cons 80 false UEIdentityIndexValue (.cons 43 false UEPagingID (.cons 198 false UERadioCapabilityForPaging (.cons 323 false WUS_Assistance_Information (.cons 231 false Extended_UEIdentityIndexValue (.cons 44 false PagingDRX .nil))))))))))))))))))
/-- examples/tests/12-s1ap.rs:9849-9856 -/
def PagingProtocolIEs_Entry : Ty := .sequence false 0 (.required true ProtocolIE_ID (.required false Criticality (.required false PagingProtocolIEs_EntryValue .nil)))
/-- examples/tests/12-s1ap.rs:9858-9865 -/
def PagingProtocolIEs : Ty := .sequenceOf (some 0) (some 65535) false PagingProtocolIEs_Entry
/-- examples/tests/12-s1ap.rs:3413-3417 -/
def Paging : Ty := .sequence true 0 (.required false PagingProtocolIEs .nil)
/-- examples/tests/12-s1ap.rs:4520-4527 -/
def TAIListForRestart : Ty := .sequenceOf (some 1) (some 2048) false TAI
/-- examples/tests/12-s1ap.rs:9777-9788 -/
def PWSRestartIndicationProtocolIEs_EntryValue : Ty := .openType (.cons 182 false ECGIListForRestart (.cons 190 false EmergencyAreaIDListForRestart (.cons 59 false Global_ENB_ID (.cons 188 false TAIListForRestart .nil))))
/-- examples/tests/12-s1ap.rs:9790-9797 -/
def PWSRestartIndicationProtocolIEs_Entry : Ty := .sequence false 0 (.required true ProtocolIE_ID (.required false Criticality (.required false PWSRestartIndicationProtocolIEs_EntryValue .nil)))
/-- examples/tests/12-s1ap.rs:9799-9806 -/
def PWSRestartIndicationProtocolIEs : Ty := .sequenceOf (some 0) (some 65535) false PWSRestartIndicationProtocolIEs_Entry
/-- examples/tests/12-s1ap.rs:3394-3398 -/
def PWSRestartIndication : Ty := .sequence true 0 (.required false PWSRestartIndicationProtocolIEs .nil)
/-- examples/tests/12-s1ap.rs:3400-3407 -/
def PWSfailedECGIList : Ty := .sequenceOf (some 1) (some 256) false EUTRAN_CGI
/-- examples/tests/12-s1ap.rs:9750-9757 -/
def PWSFailureIndicationProtocolIEs_EntryValue : Ty := .openType (.cons 59 false Global_ENB_ID (.cons 222 false PWSfailedECGIList .nil))
/-- examples/tests/12-s1ap.rs:9759-9766 -/
def PWSFailureIndicationProtocolIEs_Entry : Ty := .sequence false 0 (.required true ProtocolIE_ID (.required false Criticality (.required false PWSFailureIndicationProtocolIEs_EntryValue .nil)))
/-- examples/tests/12-s1ap.rs:9768-9775 -/
def PWSFailureIndicationProtocolIEs : Ty := .sequenceOf (some 0) (some 65535) false PWSFailureIndicationProtocolIEs_Entry
/-- examples/tests/12-s1ap.rs:3388-3392 -/
def PWSFailureIndication : Ty := .sequence true 0 (.required false PWSFailureIndicationProtocolIEs .nil)
/-- examples/tests/12-s1ap.rs:9660-9665 -/
def OverloadStopProtocolIEs_EntryValue : Ty := .openType (.cons 154 false GUMMEIList .nil)
/-- examples/tests/12-s1ap.rs:9667-9674 -/
def OverloadStopProtocolIEs_Entry : Ty := .sequence false 0 (.required true ProtocolIE_ID (.required false Criticality (.required false OverloadStopProtocolIEs_EntryValue .nil)))
/-- examples/tests/12-s1ap.rs:9676-9683 -/
def OverloadStopProtocolIEs : Ty := .sequenceOf (some 0) (some 65535) false OverloadStopProtocolIEs_Entry
/-- examples/tests/12-s1ap.rs:3301-3305 -/
def OverloadStop : Ty := .sequence true 0 (.required false OverloadStopProtocolIEs .nil)
/-- examples/tests/12-s1ap.rs:4710-4712 -/
def TrafficLoadReductionIndication : Ty := .integer .u8 (some 1) (some 99) false
/-- examples/tests/12-s1ap.rs:3272-3274 -/
def OverloadAction : Ty := .enumerated .u8 (some 0) (some 2) true
/-- examples/tests/12-s1ap.rs:3288-3293 -/
def OverloadResponse : Ty := .choice 0 0 true (.cons 0 false OverloadAction .nil)
/-- examples/tests/12-s1ap.rs:9631-9640 -/
def OverloadStartProtocolIEs_EntryValue : Ty := .openType (.cons 154 false GUMMEIList (.cons 101 false OverloadResponse (.cons 161 false TrafficLoadReductionIndication .nil)))
/-- examples/tests/12-s1ap.rs:9642-9649 -/
def OverloadStartProtocolIEs_Entry : Ty := .sequence false 0 (.required true ProtocolIE_ID (.required false Criticality (.required false OverloadStartProtocolIEs_EntryValue .nil)))
/-- examples/tests/12-s1ap.rs:9651-9658 -/
def OverloadStartProtocolIEs : Ty := .sequenceOf (some 0) (some 65535) false OverloadStartProtocolIEs_Entry
/-- examples/tests/12-s1ap.rs:3295-3299 -/
def OverloadStart : Ty := .sequence true 0 (.required false OverloadStartProtocolIEs .nil)
/-- examples/tests/12-s1ap.rs:9510-9521 -/
def NASNonDeliveryIndicationProtocolIEs_EntryValue : Ty := .openType (.cons 2 false Cause (.cons 0 false MME_UE_S1AP_ID (.cons 26 false NAS_PDU (.cons 8 false ENB_UE_S1AP_ID .nil))))
/-- examples/tests/12-s1ap.rs:9523-9530 -/
def NASNonDeliveryIndicationProtocolIEs_Entry : Ty := .sequence false 0 (.required true ProtocolIE_ID (.required false Criticality (.required false NASNonDeliveryIndicationProtocolIEs_EntryValue .nil)))
/-- examples/tests/12-s1ap.rs:9532-9539 -/
def NASNonDeliveryIndicationProtocolIEs : Ty := .sequenceOf (some 0) (some 65535) false NASNonDeliveryIndicationProtocolIEs_Entry
/-- examples/tests/12-s1ap.rs:3043-3047 -/
def NASNonDeliveryIndication : Ty := .sequence true 0 (.required false NASNonDeliveryIndicationProtocolIEs .nil)
/-- examples/tests/12-s1ap.rs:9483-9490 -/
def NASDeliveryIndicationProtocolIEs_EntryValue : Ty := .openType (.cons 0 false MME_UE_S1AP_ID (.cons 8 false ENB_UE_S1AP_ID .nil))
/-- examples/tests/12-s1ap.rs:9492-9499 -/
def NASDeliveryIndicationProtocolIEs_Entry : Ty := .sequence false 0 (.required true ProtocolIE_ID (.required false Criticality (.required false NASDeliveryIndicationProtocolIEs_EntryValue .nil)))
/-- examples/tests/12-s1ap.rs:9501-9508 -/
def NASDeliveryIndicationProtocolIEs : Ty := .sequenceOf (some 0) (some 65535) false NASDeliveryIndicationProtocolIEs_Entry
/-- examples/tests/12-s1ap.rs:3037-3041 -/
def NASDeliveryIndication : Ty := .sequence true 0 (.required false NASDeliveryIndicationProtocolIEs .nil)
/-- examples/tests/12-s1ap.rs:9416-9425 -/
def MMEStatusTransferProtocolIEs_EntryValue : Ty := .openType (.cons 0 false MME_UE_S1AP_ID (.cons 90 false ENB_StatusTransfer_TransparentContainer (.cons 8 false ENB_UE_S1AP_ID .nil)))
/-- examples/tests/12-s1ap.rs:9427-9434 -/
def MMEStatusTransferProtocolIEs_Entry : Ty := .sequence false 0 (.required true ProtocolIE_ID (.required false Criticality (.required false MMEStatusTransferProtocolIEs_EntryValue .nil)))
/-- examples/tests/12-s1ap.rs:9436-9443 -/
def MMEStatusTransferProtocolIEs : Ty := .sequenceOf (some 0) (some 65535) false MMEStatusTransferProtocolIEs_Entry
/-- examples/tests/12-s1ap.rs:2932-2936 -/
def MMEStatusTransfer : Ty := .sequence true 0 (.required false MMEStatusTransferProtocolIEs .nil)
/-- examples/tests/12-s1ap.rs:9387-9396 -/
def MMEEarlyStatusTransferProtocolIEs_EntryValue : Ty := .openType (.cons 0 false MME_UE_S1AP_ID (.cons 321 false ENB_EarlyStatusTransfer_TransparentContainer (.cons 8 false ENB_UE_S1AP_ID .nil)))
/-- examples/tests/12-s1ap.rs:9398-9405 -/
def MMEEarlyStatusTransferProtocolIEs_Entry : Ty := .sequence false 0 (.required true ProtocolIE_ID (.required false Criticality (.required false MMEEarlyStatusTransferProtocolIEs_EntryValue .nil)))
/-- examples/tests/12-s1ap.rs:9407-9414 -/
def MMEEarlyStatusTransferProtocolIEs : Ty := .sequenceOf (some 0) (some 65535) false MMEEarlyStatusTransferProtocolIEs_Entry
/-- examples/tests/12-s1ap.rs:2910-2914 -/
def MMEEarlyStatusTransfer : Ty := .sequence true 0 (.required false MMEEarlyStatusTransferProtocolIEs .nil)
/-- examples/tests/12-s1ap.rs:9360-9365 -/
def MMEDirectInformationTransferProtocolIEs_EntryValue : Ty := .openType (.cons 122 false Inter_SystemInformationTransferType .nil)
/-- examples/tests/12-s1ap.rs:9367-9374 -/
def MMEDirectInformationTransferProtocolIEs_Entry : Ty := .sequence false 0 (.required true ProtocolIE_ID (.required false Criticality (.required false MMEDirectInformationTransferProtocolIEs_EntryValue .nil)))
/-- examples/tests/12-s1ap.rs:9376-9385 -/
def MMEDirectInformationTransferProtocolIEs : Ty := .sequenceOf (some 0) (some 65535) false MMEDirectInformationTransferProtocolIEs_Entry
/-- examples/tests/12-s1ap.rs:2904-2908 -/
def MMEDirectInformationTransfer : Ty := .sequence true 0 (.required false MMEDirectInformationTransferProtocolIEs .nil)
/-- examples/tests/12-s1ap.rs:10700-10705 -/
def ServedGUMMEIsItemIE_Extensions_EntryExtensionValue : Ty := .openType (.cons 170 false GUMMEIType .nil)
/-- examples/tests/12-s1ap.rs:10707-10714 -/
def ServedGUMMEIsItemIE_Extensions_Entry : Ty := .sequence false 0 (.required true ProtocolExtensionID (.required false Criticality (.required false ServedGUMMEIsItemIE_Extensions_EntryExtensionValue .nil)))
/-- examples/tests/12-s1ap.rs:10716-10723 -/
def ServedGUMMEIsItemIE_Extensions : Ty := .sequenceOf (some 1) (some 65535) false ServedGUMMEIsItemIE_Extensions_Entry
/-- examples/tests/12-s1ap.rs:4257-4264 -/
def ServedMMECs : Ty := .sequenceOf (some 1) (some 256) false MME_Code
/-- examples/tests/12-s1ap.rs:4248-4255 -/
def ServedGroupIDs : Ty := .sequenceOf (some 1) (some 65535) false MME_Group_ID
/-- examples/tests/12-s1ap.rs:4266-4268 -/
def ServedPLMNs : Ty := .sequenceOf (some 1) (some 32) false PLMNidentity
/-- examples/tests/12-s1ap.rs:4238-4246 -/
def ServedGUMMEIsItem : Ty := .sequence true 1 (.required false ServedPLMNs (.required false ServedGroupIDs (.required false ServedMMECs (.optional 0 ServedGUMMEIsItemIE_Extensions .nil))))
/-- examples/tests/12-s1ap.rs:4234-4236 -/
def ServedGUMMEIs : Ty := .sequenceOf (some 1) (some 8) false ServedGUMMEIsItem
/-- examples/tests/12-s1ap.rs:10687-10689 -/
def ServedDCNsItemIE_Extensions_Entry : Ty := .sequence false 0 .nil
/-- examples/tests/12-s1ap.rs:10691-10698 -/
def ServedDCNsItemIE_Extensions : Ty := .sequenceOf (some 1) (some 65535) false ServedDCNsItemIE_Extensions_Entry
/-- examples/tests/12-s1ap.rs:3831-3833 -/
def RelativeMMECapacity : Ty := .integer .u8 (some 0) (some 255) false
/-- examples/tests/12-s1ap.rs:4225-4232 -/
def ServedDCNsItem : Ty := .sequence true 1 (.required false DCN_ID (.required false RelativeMMECapacity (.optional 0 ServedDCNsItemIE_Extensions .nil)))
/-- examples/tests/12-s1ap.rs:4221-4223 -/
def ServedDCNs : Ty := .sequenceOf (some 0) (some 32) false ServedDCNsItem
/-- examples/tests/12-s1ap.rs:2938-2945 -/
def MMEname : Ty := .charstring .printable (some 1) (some 150) true
/-- examples/tests/12-s1ap.rs:9271-9282 -/
def MMEConfigurationUpdateProtocolIEs_EntryValue : Ty := .openType (.cons 61 false MMEname (.cons 87 false RelativeMMECapacity (.cons 247 false ServedDCNs (.cons 105 false ServedGUMMEIs .nil))))
/-- examples/tests/12-s1ap.rs:9284-9291 -/
def MMEConfigurationUpdateProtocolIEs_Entry : Ty := .sequence false 0 (.required true ProtocolIE_ID (.required false Criticality (.required false MMEConfigurationUpdateProtocolIEs_EntryValue .nil)))
/-- examples/tests/12-s1ap.rs:9293-9300 -/
def MMEConfigurationUpdateProtocolIEs : Ty := .sequenceOf (some 0) (some 65535) false MMEConfigurationUpdateProtocolIEs_Entry
/-- examples/tests/12-s1ap.rs:2886-2890 -/
def MMEConfigurationUpdate : Ty := .sequence true 0 (.required false MMEConfigurationUpdateProtocolIEs .nil)
/-- examples/tests/12-s1ap.rs:9242-9251 -/
def MMEConfigurationTransferProtocolIEs_EntryValue : Ty := .openType (.cons 295 false EN_DCSONConfigurationTransfer (.cons 309 false IntersystemSONConfigurationTransfer (.cons 130 false SONConfigurationTransfer .nil)))
/-- examples/tests/12-s1ap.rs:9253-9260 -/
def MMEConfigurationTransferProtocolIEs_Entry : Ty := .sequence false 0 (.required true ProtocolIE_ID (.required false Criticality (.required false MMEConfigurationTransferProtocolIEs_EntryValue .nil)))
/-- examples/tests/12-s1ap.rs:9262-9269 -/
def MMEConfigurationTransferProtocolIEs : Ty := .sequenceOf (some 0) (some 65535) false MMEConfigurationTransferProtocolIEs_Entry
/-- examples/tests/12-s1ap.rs:2880-2884 -/
def MMEConfigurationTransfer : Ty := .sequence true 0 (.required false MMEConfigurationTransferProtocolIEs .nil)
/-- examples/tests/12-s1ap.rs:9213-9220 -/
def MMECPRelocationIndicationProtocolIEs_EntryValue : Ty := .openType (.cons 0 false MME_UE_S1AP_ID (.cons 8 false ENB_UE_S1AP_ID .nil))
/-- examples/tests/12-s1ap.rs:9222-9229 -/
def MMECPRelocationIndicationProtocolIEs_Entry : Ty := .sequence false 0 (.required true ProtocolIE_ID (.required false Criticality (.required false MMECPRelocationIndicationProtocolIEs_EntryValue .nil)))
/-- examples/tests/12-s1ap.rs:9231-9240 -/
def MMECPRelocationIndicationProtocolIEs : Ty := .sequenceOf (some 0) (some 65535) false MMECPRelocationIndicationProtocolIEs_Entry
/-- examples/tests/12-s1ap.rs:2874-2878 -/
def MMECPRelocationIndication : Ty := .sequence true 0 (.required false MMECPRelocationIndicationProtocolIEs .nil)
/-- examples/tests/12-s1ap.rs:9002-9011 -/
def LocationReportingFailureIndicationProtocolIEs_EntryValue : Ty := .openType (.cons 2 false Cause (.cons 0 false MME_UE_S1AP_ID (.cons 8 false ENB_UE_S1AP_ID .nil)))
/-- examples/tests/12-s1ap.rs:9013-9020 -/
def LocationReportingFailureIndicationProtocolIEs_Entry : Ty := .sequence false 0 (.required true ProtocolIE_ID (.required false Criticality (.required false LocationReportingFailureIndicationProtocolIEs_EntryValue .nil)))
/-- examples/tests/12-s1ap.rs:9022-9031 -/
def LocationReportingFailureIndicationProtocolIEs : Ty := .sequenceOf (some 0) (some 65535) false LocationReportingFailureIndicationProtocolIEs_Entry
/-- examples/tests/12-s1ap.rs:2607-2611 -/
def LocationReportingFailureIndication : Ty := .sequence true 0 (.required false LocationReportingFailureIndicationProtocolIEs .nil)
/-- examples/tests/12-s1ap.rs:8973-8982 -/
def LocationReportingControlProtocolIEs_EntryValue : Ty := .openType (.cons 0 false MME_UE_S1AP_ID (.cons 98 false RequestType (.cons 8 false ENB_UE_S1AP_ID .nil)))
/-- examples/tests/12-s1ap.rs:8984-8991 -/
def LocationReportingControlProtocolIEs_Entry : Ty := .sequence false 0 (.required true ProtocolIE_ID (.required false Criticality (.required false LocationReportingControlProtocolIEs_EntryValue .nil)))
/-- examples/tests/12-s1ap.rs:8993-9000 -/
def LocationReportingControlProtocolIEs : Ty := .sequenceOf (some 0) (some 65535) false LocationReportingControlProtocolIEs_Entry
/-- examples/tests/12-s1ap.rs:2601-2605 -/
def LocationReportingControl : Ty := .sequence true 0 (.required false LocationReportingControlProtocolIEs .nil)
/-- examples/tests/12-s1ap.rs:8938-8953 -/
def LocationReportProtocolIEs_EntryValue : Ty := .openType (.cons 100 false EUTRAN_CGI (.cons 0 false MME_UE_S1AP_ID (.cons 288 false PSCellInformation (.cons 98 false RequestType (.cons 67 false TAI (.cons 8 false ENB_UE_S1AP_ID .nil))))))
/-- examples/tests/12-s1ap.rs:8955-8962 -/
def LocationReportProtocolIEs_Entry : Ty := .sequence false 0 (.required true ProtocolIE_ID (.required false Criticality (.required false LocationReportProtocolIEs_EntryValue .nil)))
/-- examples/tests/12-s1ap.rs:8964-8971 -/
def LocationReportProtocolIEs : Ty := .sequenceOf (some 0) (some 65535) false LocationReportProtocolIEs_Entry
/-- examples/tests/12-s1ap.rs:2595-2599 -/
def LocationReport : Ty := .sequence true 0 (.required false LocationReportProtocolIEs .nil)
/-- examples/tests/12-s1ap.rs:2483-2485 -/
def KillAllWarningMessages : Ty := .enumerated .u8 (some 0) (some 0) false
/-- examples/tests/12-s1ap.rs:8801-8812 -/
def KillRequestProtocolIEs_EntryValue : Ty := .openType (.cons 191 false KillAllWarningMessages (.cons 111 false MessageIdentifier (.cons 112 false SerialNumber (.cons 113 false WarningAreaList .nil))))
/-- examples/tests/12-s1ap.rs:8814-8821 -/
def KillRequestProtocolIEs_Entry : Ty := .sequence false 0 (.required true ProtocolIE_ID (.required false Criticality (.required false KillRequestProtocolIEs_EntryValue .nil)))
/-- examples/tests/12-s1ap.rs:8823-8830 -/
def KillRequestProtocolIEs : Ty := .sequenceOf (some 0) (some 65535) false KillRequestProtocolIEs_Entry
/-- examples/tests/12-s1ap.rs:2490-2494 -/
def KillRequest : Ty := .sequence true 0 (.required false KillRequestProtocolIEs .nil)
/-- examples/tests/12-s1ap.rs:8554-8691 -/
def InitiatingMessageValue : Ty := .openType (.cons 42 false CellTrafficTrace (.cons 54 false ConnectionEstablishmentIndication (.cons 26 false DeactivateTrace (.cons 19 false DownlinkS1cdma2000tunnelling (.cons 50 false E_RABModificationIndication (.cons 6 false E_RABModifyRequest (.cons 7 false E_RABReleaseCommand (.cons 8 false E_RABReleaseIndication (.cons 5 false E_RABSetupRequest (.cons 29 false ENBConfigurationUpdate (.cons 15 false ErrorIndication (.cons 4 false HandoverCancel (.cons 2 false HandoverNotify (.cons 0 false HandoverRequired (.cons 1 false HandoverRequest (.cons 64 false HandoverSuccess (.cons 9 false InitialContextSetupRequest (.cons 43 false KillRequest (.cons 33 false LocationReport (.cons 31 false LocationReportingControl (.cons 32 false LocationReportingFailureIndication (.cons 61 false MMECPRelocationIndication (.cons 41 false MMEConfigurationTransfer (.cons 30 false MMEConfigurationUpdate (.cons 38 false MMEDirectInformationTransfer (.cons 66 false MMEEarlyStatusTransfer (.cons 25 false MMEStatusTransfer (.cons 57 false NASDeliveryIndication (.cons 16 false NASNonDeliveryIndication (.cons 34 false OverloadStart (.cons 35 false OverloadStop (.cons 51 false PWSFailureIndication (.cons 49 false PWSRestartIndication (.cons 10 false Paging (.cons 3 false PathSwitchRequest (.cons 39 false PrivateMessage (.cons 52 false RerouteNASRequest (.cons 14 false Reset (.cons 58 false RetrieveUEInformation (.cons 17 false S1SetupRequest (.cons 62 false SecondaryRATDataUsageReport (.cons 28 false TraceFailureIndication (.cons 27 false TraceStart (.cons 22 false UECapabilityInfoIndication (.cons 21 false UEContextModificationRequest (.cons 53 false UEContextModificationIndication (.cons 23 false UEContextReleaseCommand (.cons 18 false UEContextReleaseRequest (.cons 56 false UEContextResumeRequest (.cons 55 false UEContextSuspendRequest (.cons 59 false UEInformationTransfer (.cons 63 false UERadioCapabilityIDMappingRequest (.cons 48 false UERadioCapabilityMatchRequest (.cons 20 false UplinkS1cdma2000tunnelling (.cons 36 false WriteReplaceWarningRequest (.cons 11 false DownlinkNASTransport (.cons 46 false DownlinkNonUEAssociatedLPPaTransport (.cons 44 false DownlinkUEAssociatedLPPaTransport (.cons 60 false ENBCPRelocationIndication (.cons 40 false ENBConfigurationTransfer (.cons 37 false ENBDirectInformationTransfer (.cons 65 false ENBEarlyStatusTransfer (.cons 24 false ENBStatusTransfer (.cons 12 false InitialUEMessage (.cons 13 false UplinkNASTransport (.cons 47 false UplinkNonUEAssociatedLPPaTransport (.cons 45 false UplinkUEAssociatedLPPaTransport .nil)))))))))))))))))))))))))))))))))))))))))))))))))))))))))))))))))))
/-- examples/tests/12-s1ap.rs:2399-2406 -/
def InitiatingMessage : Ty := .sequence false 0 (.required true ProcedureCode (.required false Criticality (.required false InitiatingMessageValue .nil)))
/-- examples/tests/12-s1ap.rs:8740-8742 -/
def InterSystemMeasurementItemIE_Extensions_Entry : Ty := .sequence false 0 .nil
/-- examples/tests/12-s1ap.rs:8744-8753 -/
def InterSystemMeasurementItemIE_Extensions : Ty := .sequenceOf (some 1) (some 65535) false InterSystemMeasurementItemIE_Extensions_Entry
/-- examples/tests/12-s1ap.rs:8736-8738 -/
def OCTET_STRING_34 : Ty := .octetstring none none false
/-- examples/tests/12-s1ap.rs:8732-8734 -/
def OCTET_STRING_33 : Ty := .octetstring none none false
/-- examples/tests/12-s1ap.rs:8728-8730 -/
def OCTET_STRING_32 : Ty := .octetstring none none false
/-- examples/tests/12-s1ap.rs:8724-8726 -/
def OCTET_STRING_31 : Ty := .octetstring none none false
/-- examples/tests/12-s1ap.rs:8720-8722 -/
def OCTET_STRING_30 : Ty := .octetstring none none false
/-- examples/tests/12-s1ap.rs:8716-8718 -/
def OCTET_STRING_29 : Ty := .octetstring none none false
/-- examples/tests/12-s1ap.rs:8712-8714 -/
def INTEGER_28 : Ty := .integer .u8 (some 1) (some 16) false
/-- examples/tests/12-s1ap.rs:8701-8703 -/
def ENUMERATED_27 : Ty := .enumerated .u8 (some 0) (some 4) true
/-- examples/tests/12-s1ap.rs:8697-8699 -/
def INTEGER_26 : Ty := .integer .u8 (some 0) (some 32) false
/-- examples/tests/12-s1ap.rs:8693-8695 -/
def INTEGER_25 : Ty := .integer .u16 (some 1) (some 1024) false
/-- examples/tests/12-s1ap.rs:2423-2445 -/
def InterSystemMeasurementItem : Ty := .sequence false 8 (.required false INTEGER_25 (.required false INTEGER_26 (.required false ENUMERATED_27 (.optional 0 INTEGER_28 (.optional 1 OCTET_STRING_29 (.optional 2 OCTET_STRING_30 (.optional 3 OCTET_STRING_31 (.optional 4 OCTET_STRING_32 (.optional 5 OCTET_STRING_33 (.optional 6 OCTET_STRING_34 (.optional 7 InterSystemMeasurementItemIE_Extensions .nil)))))))))))
/-- examples/tests/12-s1ap.rs:2447-2449 -/
def InterSystemMeasurementList : Ty := .sequenceOf (some 1) (some 64) false InterSystemMeasurementItem
/-- examples/tests/12-s1ap.rs:8759-8761 -/
def InterSystemMeasurementParametersIE_Extensions_Entry : Ty := .sequence false 0 .nil
/-- examples/tests/12-s1ap.rs:8763-8772 -/
def InterSystemMeasurementParametersIE_Extensions : Ty := .sequenceOf (some 1) (some 65535) false InterSystemMeasurementParametersIE_Extensions_Entry
/-- examples/tests/12-s1ap.rs:8755-8757 -/
def INTEGER_35 : Ty := .integer .u8 (some 1) (some 100) false
/-- examples/tests/12-s1ap.rs:2451-2459 -/
def InterSystemMeasurementParameters : Ty := .sequence true 2 (.required false INTEGER_35 (.optional 0 InterSystemMeasurementList (.optional 1 InterSystemMeasurementParametersIE_Extensions .nil)))
/-- examples/tests/12-s1ap.rs:8786-8788 -/
def IntersystemMeasurementConfigurationIE_Extensions_Entry : Ty := .sequence false 0 .nil
/-- examples/tests/12-s1ap.rs:8790-8799 -/
def IntersystemMeasurementConfigurationIE_Extensions : Ty := .sequenceOf (some 1) (some 65535) false IntersystemMeasurementConfigurationIE_Extensions_Entry
/-- examples/tests/12-s1ap.rs:8782-8784 -/
def INTEGER_38 : Ty := .integer .u8 (some 0) (some 127) false
/-- examples/tests/12-s1ap.rs:8778-8780 -/
def INTEGER_37 : Ty := .integer .u8 (some 0) (some 127) false
/-- examples/tests/12-s1ap.rs:8774-8776 -/
def INTEGER_36 : Ty := .integer .u8 (some 0) (some 127) false
/-- examples/tests/12-s1ap.rs:2465-2477 -/
def IntersystemMeasurementConfiguration : Ty := .sequence true 4 (.optional 0 INTEGER_36 (.optional 1 INTEGER_37 (.optional 2 INTEGER_38 (.required false InterSystemMeasurementParameters (.optional 3 IntersystemMeasurementConfigurationIE_Extensions .nil)))))
/-- examples/tests/12-s1ap.rs:8832-8843 -/
def KillResponseProtocolIEs_EntryValue : Ty := .openType (.cons 141 false BroadcastCancelledAreaList (.cons 58 false CriticalityDiagnostics (.cons 111 false MessageIdentifier (.cons 112 false SerialNumber .nil))))
/-- examples/tests/12-s1ap.rs:8845-8852 -/
def KillResponseProtocolIEs_Entry : Ty := .sequence false 0 (.required true ProtocolIE_ID (.required false Criticality (.required false KillResponseProtocolIEs_EntryValue .nil)))
/-- examples/tests/12-s1ap.rs:8854-8861 -/
def KillResponseProtocolIEs : Ty := .sequenceOf (some 0) (some 65535) false KillResponseProtocolIEs_Entry
/-- examples/tests/12-s1ap.rs:2496-2500 -/
def KillResponse : Ty := .sequence true 0 (.required false KillResponseProtocolIEs .nil)
/-- examples/tests/12-s1ap.rs:2502-2504 -/
def L3_Information : Ty := .octetstring none none false
/-- examples/tests/12-s1ap.rs:2569-2571 -/
def LastVisitedNGRANCellInformation : Ty := .octetstring none none false
/-- examples/tests/12-s1ap.rs:8905-8907 -/
def NULL_39 : Ty := .null
/-- examples/tests/12-s1ap.rs:2562-2567 -/
def LastVisitedGERANCellInformation : Ty := .choice 0 0 true (.cons 0 false NULL_39 .nil)
/-- examples/tests/12-s1ap.rs:2573-2575 -/
def LastVisitedUTRANCellInformation : Ty := .octetstring none none false
/-- examples/tests/12-s1ap.rs:4638-4640 -/
def Time_UE_StayedInCell_EnhancedGranularity : Ty := .integer .u16 (some 0) (some 40950) false
/-- examples/tests/12-s1ap.rs:8876-8883 -/
def LastVisitedEUTRANCellInformationIE_Extensions_EntryExtensionValue : Ty := .openType (.cons 168 false Cause (.cons 167 false Time_UE_StayedInCell_EnhancedGranularity .nil))
/-- examples/tests/12-s1ap.rs:8885-8892 -/
def LastVisitedEUTRANCellInformationIE_Extensions_Entry : Ty := .sequence false 0 (.required true ProtocolExtensionID (.required false Criticality (.required false LastVisitedEUTRANCellInformationIE_Extensions_EntryExtensionValue .nil)))
/-- examples/tests/12-s1ap.rs:8894-8903 -/
def LastVisitedEUTRANCellInformationIE_Extensions : Ty := .sequenceOf (some 1) (some 65535) false LastVisitedEUTRANCellInformationIE_Extensions_Entry
/-- examples/tests/12-s1ap.rs:4634-4636 -/
def Time_UE_StayedInCell : Ty := .integer .u16 (some 0) (some 4095) false
/-- examples/tests/12-s1ap.rs:2552-2560 -/
def LastVisitedEUTRANCellInformation : Ty := .sequence true 1 (.required false EUTRAN_CGI (.required false CellType (.required false Time_UE_StayedInCell (.optional 0 LastVisitedEUTRANCellInformationIE_Extensions .nil))))
/-- examples/tests/12-s1ap.rs:2539-2550 -/
def LastVisitedCell_Item : Ty := .choice 0 2 true (.cons 0 false LastVisitedEUTRANCellInformation (.cons 1 false LastVisitedUTRANCellInformation (.cons 2 false LastVisitedGERANCellInformation (.cons 0 true LastVisitedNGRANCellInformation .nil))))
/-- examples/tests/12-s1ap.rs:9302-9307 -/
def MMEConfigurationUpdateAcknowledgeProtocolIEs_EntryValue : Ty := .openType (.cons 58 false CriticalityDiagnostics .nil)
/-- examples/tests/12-s1ap.rs:9309-9316 -/
def MMEConfigurationUpdateAcknowledgeProtocolIEs_Entry : Ty := .sequence false 0 (.required true ProtocolIE_ID (.required false Criticality (.required false MMEConfigurationUpdateAcknowledgeProtocolIEs_EntryValue .nil)))
/-- examples/tests/12-s1ap.rs:9318-9327 -/
def MMEConfigurationUpdateAcknowledgeProtocolIEs : Ty := .sequenceOf (some 0) (some 65535) false MMEConfigurationUpdateAcknowledgeProtocolIEs_Entry
/-- examples/tests/12-s1ap.rs:2892-2896 -/
def MMEConfigurationUpdateAcknowledge : Ty := .sequence true 0 (.required false MMEConfigurationUpdateAcknowledgeProtocolIEs .nil)
/-- examples/tests/12-s1ap.rs:9329-9338 -/
def MMEConfigurationUpdateFailureProtocolIEs_EntryValue : Ty := .openType (.cons 2 false Cause (.cons 58 false CriticalityDiagnostics (.cons 65 false TimeToWait .nil)))
/-- examples/tests/12-s1ap.rs:9340-9347 -/
def MMEConfigurationUpdateFailureProtocolIEs_Entry : Ty := .sequence false 0 (.required true ProtocolIE_ID (.required false Criticality (.required false MMEConfigurationUpdateFailureProtocolIEs_EntryValue .nil)))
/-- examples/tests/12-s1ap.rs:9349-9358 -/
def MMEConfigurationUpdateFailureProtocolIEs : Ty := .sequenceOf (some 0) (some 65535) false MMEConfigurationUpdateFailureProtocolIEs_Entry
/-- examples/tests/12-s1ap.rs:2898-2902 -/
def MMEConfigurationUpdateFailure : Ty := .sequence true 0 (.required false MMEConfigurationUpdateFailureProtocolIEs .nil)
/-- examples/tests/12-s1ap.rs:2925-2927 -/
def MMERelaySupportIndicator : Ty := .enumerated .u8 (some 0) (some 0) true
/-- examples/tests/12-s1ap.rs:3917-3924 -/
def RequestedCellList : Ty := .sequenceOf (some 1) (some 128) false IRAT_Cell_ID
/-- examples/tests/12-s1ap.rs:2987-2991 -/
def MultiCellLoadReportingRequest : Ty := .sequence true 0 (.required false RequestedCellList .nil)
/-- examples/tests/12-s1ap.rs:9449-9451 -/
def OCTET_STRING_44 : Ty := .octetstring none none false
/-- examples/tests/12-s1ap.rs:9445-9447 -/
def OCTET_STRING_43 : Ty := .octetstring none none false
/-- examples/tests/12-s1ap.rs:3002-3013 -/
def MultiCellLoadReportingResponse_Item : Ty := .choice 0 2 true (.cons 0 false EUTRANResponse (.cons 1 false OCTET_STRING_43 (.cons 2 false OCTET_STRING_44 (.cons 0 true EHRPDMultiSectorLoadReportingResponseItem .nil))))
/-- examples/tests/12-s1ap.rs:2993-3000 -/
def MultiCellLoadReportingResponse : Ty := .sequenceOf (some 1) (some 128) false MultiCellLoadReportingResponse_Item
/-- examples/tests/12-s1ap.rs:3268-3270 -/
def OldBSS_ToNewBSS_Information : Ty := .octetstring none none false
/-- examples/tests/12-s1ap.rs:9948-10001 -/
def PathSwitchRequestAcknowledgeProtocolIEs_EntryValue : Ty := .openType (.cons 299 false AdditionalRRMPriorityIndex (.cons 277 false AerialUEsubscriptionInformation (.cons 271 false CE_ModeBRestricted (.cons 146 false CSGMembershipStatus (.cons 58 false CriticalityDiagnostics (.cons 33 false E_RABList (.cons 95 false E_RABToBeSwitchedULList (.cons 251 false EnhancedCoverageRestricted (.cons 41 false HandoverRestrictionList (.cons 0 false MME_UE_S1AP_ID (.cons 158 false MME_UE_S1AP_ID (.cons 269 false NRUESecurityCapabilities (.cons 307 false NRUESidelinkAggregateMaximumBitrate (.cons 306 false NRV2XServicesAuthorized (.cons 308 false PC5QoSParameters (.cons 283 false PendingDataIndication (.cons 195 false ProSeAuthorized (.cons 40 false SecurityContext (.cons 278 false Subscription_Based_UE_DifferentiationInfo (.cons 314 false UERadioCapabilityID (.cons 248 false UESidelinkAggregateMaximumBitrate (.cons 241 false UEUserPlaneCIoTSupportIndicator (.cons 240 false V2XServicesAuthorized (.cons 8 false ENB_UE_S1AP_ID (.cons 66 false UEAggregateMaximumBitrate .nil)))))))))))))))))))))))))
/-- examples/tests/12-s1ap.rs:10003-10010 -/
def PathSwitchRequestAcknowledgeProtocolIEs_Entry : Ty := .sequence false 0 (.required true ProtocolIE_ID (.required false Criticality (.required false PathSwitchRequestAcknowledgeProtocolIEs_EntryValue .nil)))
/-- examples/tests/12-s1ap.rs:10012-10021 -/
def PathSwitchRequestAcknowledgeProtocolIEs : Ty := .sequenceOf (some 0) (some 65535) false PathSwitchRequestAcknowledgeProtocolIEs_Entry
/-- examples/tests/12-s1ap.rs:3543-3547 -/
def PathSwitchRequestAcknowledge : Ty := .sequence true 0 (.required false PathSwitchRequestAcknowledgeProtocolIEs .nil)
/-- examples/tests/12-s1ap.rs:10023-10034 -/
def PathSwitchRequestFailureProtocolIEs_EntryValue : Ty := .openType (.cons 2 false Cause (.cons 58 false CriticalityDiagnostics (.cons 0 false MME_UE_S1AP_ID (.cons 8 false ENB_UE_S1AP_ID .nil))))
/-- examples/tests/12-s1ap.rs:10036-10043 -/
def PathSwitchRequestFailureProtocolIEs_Entry : Ty := .sequence false 0 (.required true ProtocolIE_ID (.required false Criticality (.required false PathSwitchRequestFailureProtocolIEs_EntryValue .nil)))
/-- examples/tests/12-s1ap.rs:10045-10052 -/
def PathSwitchRequestFailureProtocolIEs : Ty := .sequenceOf (some 0) (some 65535) false PathSwitchRequestFailureProtocolIEs_Entry
/-- examples/tests/12-s1ap.rs:3549-3553 -/
def PathSwitchRequestFailure : Ty := .sequence true 0 (.required false PathSwitchRequestFailureProtocolIEs .nil)
/-- examples/tests/12-s1ap.rs:3590-3592 -/
def Presence : Ty := .enumerated .u8 (some 0) (some 2) false
/-- examples/tests/12-s1ap.rs:10058-10060 -/
def OBJECT_IDENTIFIER_49 : Ty := .objectIdentifier
/-- examples/tests/12-s1ap.rs:10054-10056 -/
def INTEGER_48 : Ty := .integer .u16 (some 0) (some 65535) false
/-- examples/tests/12-s1ap.rs:3611-3618 -/
def PrivateIE_ID : Ty := .choice 0 1 false (.cons 0 false INTEGER_48 (.cons 1 false OBJECT_IDENTIFIER_49 .nil))
/-- examples/tests/12-s1ap.rs:3732-3734 -/
def RRC_Container : Ty := .octetstring none none false
/-- examples/tests/12-s1ap.rs:3895-3899 -/
def ReportingCellList_Item : Ty := .sequence true 0 (.required false IRAT_Cell_ID .nil)
/-- examples/tests/12-s1ap.rs:3886-3893 -/
def ReportingCellList : Ty := .sequenceOf (some 1) (some 128) false ReportingCellList_Item
/-- examples/tests/12-s1ap.rs:11301-11306 -/
def UE_associatedLogicalS1_ConnectionListResAck_EntryValue : Ty := .openType (.cons 91 false UE_associatedLogicalS1_ConnectionItem .nil)
/-- examples/tests/12-s1ap.rs:11308-11315 -/
def UE_associatedLogicalS1_ConnectionListResAck_Entry : Ty := .sequence false 0 (.required true ProtocolIE_ID (.required false Criticality (.required false UE_associatedLogicalS1_ConnectionListResAck_EntryValue .nil)))
/-- examples/tests/12-s1ap.rs:4823-4832 -/
def UE_associatedLogicalS1_ConnectionListResAck : Ty := .sequenceOf (some 1) (some 256) false UE_associatedLogicalS1_ConnectionListResAck_Entry
/-- examples/tests/12-s1ap.rs:10324-10331 -/
def ResetAcknowledgeProtocolIEs_EntryValue : Ty := .openType (.cons 58 false CriticalityDiagnostics (.cons 93 false UE_associatedLogicalS1_ConnectionListResAck .nil))
/-- examples/tests/12-s1ap.rs:10333-10340 -/
def ResetAcknowledgeProtocolIEs_Entry : Ty := .sequence false 0 (.required true ProtocolIE_ID (.required false Criticality (.required false ResetAcknowledgeProtocolIEs_EntryValue .nil)))
/-- examples/tests/12-s1ap.rs:10342-10349 -/
def ResetAcknowledgeProtocolIEs : Ty := .sequenceOf (some 0) (some 65535) false ResetAcknowledgeProtocolIEs_Entry
/-- examples/tests/12-s1ap.rs:3938-3942 -/
def ResetAcknowledge : Ty := .sequence true 0 (.required false ResetAcknowledgeProtocolIEs .nil)
/-- examples/tests/12-s1ap.rs:11717-11728 -/
def UEContextResumeFailureProtocolIEs_EntryValue : Ty := .openType (.cons 2 false Cause (.cons 58 false CriticalityDiagnostics (.cons 0 false MME_UE_S1AP_ID (.cons 8 false ENB_UE_S1AP_ID .nil))))
/-- examples/tests/12-s1ap.rs:11730-11737 -/
def UEContextResumeFailureProtocolIEs_Entry : Ty := .sequence false 0 (.required true ProtocolIE_ID (.required false Criticality (.required false UEContextResumeFailureProtocolIEs_EntryValue .nil)))
/-- examples/tests/12-s1ap.rs:11739-11746 -/
def UEContextResumeFailureProtocolIEs : Ty := .sequenceOf (some 0) (some 65535) false UEContextResumeFailureProtocolIEs_Entry
/-- examples/tests/12-s1ap.rs:4913-4917 -/
def UEContextResumeFailure : Ty := .sequence true 0 (.required false UEContextResumeFailureProtocolIEs .nil)
/-- examples/tests/12-s1ap.rs:11452-11463 -/
def UEContextModificationFailureProtocolIEs_EntryValue : Ty := .openType (.cons 2 false Cause (.cons 58 false CriticalityDiagnostics (.cons 0 false MME_UE_S1AP_ID (.cons 8 false ENB_UE_S1AP_ID .nil))))
/-- examples/tests/12-s1ap.rs:11465-11472 -/
def UEContextModificationFailureProtocolIEs_Entry : Ty := .sequence false 0 (.required true ProtocolIE_ID (.required false Criticality (.required false UEContextModificationFailureProtocolIEs_EntryValue .nil)))
/-- examples/tests/12-s1ap.rs:11474-11483 -/
def UEContextModificationFailureProtocolIEs : Ty := .sequenceOf (some 0) (some 65535) false UEContextModificationFailureProtocolIEs_Entry
/-- examples/tests/12-s1ap.rs:4871-4875 -/
def UEContextModificationFailure : Ty := .sequence true 0 (.required false UEContextModificationFailureProtocolIEs .nil)
/-- examples/tests/12-s1ap.rs:10389-10398 -/
def S1SetupFailureProtocolIEs_EntryValue : Ty := .openType (.cons 2 false Cause (.cons 58 false CriticalityDiagnostics (.cons 65 false TimeToWait .nil)))
/-- examples/tests/12-s1ap.rs:10400-10407 -/
def S1SetupFailureProtocolIEs_Entry : Ty := .sequence false 0 (.required true ProtocolIE_ID (.required false Criticality (.required false S1SetupFailureProtocolIEs_EntryValue .nil)))
/-- examples/tests/12-s1ap.rs:10409-10416 -/
def S1SetupFailureProtocolIEs : Ty := .sequenceOf (some 0) (some 65535) false S1SetupFailureProtocolIEs_Entry
/-- examples/tests/12-s1ap.rs:3990-3994 -/
def S1SetupFailure : Ty := .sequence true 0 (.required false S1SetupFailureProtocolIEs .nil)
/-- examples/tests/12-s1ap.rs:12082-12103 -/
def UnsuccessfulOutcomeValue : Ty := .openType (.cons 29 false ENBConfigurationUpdateFailure (.cons 0 false HandoverPreparationFailure (.cons 1 false HandoverFailure (.cons 9 false InitialContextSetupFailure (.cons 30 false MMEConfigurationUpdateFailure (.cons 3 false PathSwitchRequestFailure (.cons 17 false S1SetupFailure (.cons 21 false UEContextModificationFailure (.cons 56 false UEContextResumeFailure .nil)))))))))
/-- examples/tests/12-s1ap.rs:5050-5057 -/
def UnsuccessfulOutcome : Ty := .sequence false 0 (.required true ProcedureCode (.required false Criticality (.required false UnsuccessfulOutcomeValue .nil)))
/-- examples/tests/12-s1ap.rs:12384-12395 -/
def WriteReplaceWarningResponseProtocolIEs_EntryValue : Ty := .openType (.cons 120 false BroadcastCompletedAreaList (.cons 58 false CriticalityDiagnostics (.cons 111 false MessageIdentifier (.cons 112 false SerialNumber .nil))))
/-- examples/tests/12-s1ap.rs:12397-12404 -/
def WriteReplaceWarningResponseProtocolIEs_Entry : Ty := .sequence false 0 (.required true ProtocolIE_ID (.required false Criticality (.required false WriteReplaceWarningResponseProtocolIEs_EntryValue .nil)))
/-- examples/tests/12-s1ap.rs:12406-12415 -/
def WriteReplaceWarningResponseProtocolIEs : Ty := .sequenceOf (some 0) (some 65535) false WriteReplaceWarningResponseProtocolIEs_Entry
/-- examples/tests/12-s1ap.rs:5209-5213 -/
def WriteReplaceWarningResponse : Ty := .sequence true 0 (.required false WriteReplaceWarningResponseProtocolIEs .nil)
/-- examples/tests/12-s1ap.rs:5111-5113 -/
def VoiceSupportMatchIndicator : Ty := .enumerated .u8 (some 0) (some 1) true
/-- examples/tests/12-s1ap.rs:12006-12017 -/
def UERadioCapabilityMatchResponseProtocolIEs_EntryValue : Ty := .openType (.cons 58 false CriticalityDiagnostics (.cons 0 false MME_UE_S1AP_ID (.cons 169 false VoiceSupportMatchIndicator (.cons 8 false ENB_UE_S1AP_ID .nil))))
/-- examples/tests/12-s1ap.rs:12019-12026 -/
def UERadioCapabilityMatchResponseProtocolIEs_Entry : Ty := .sequence false 0 (.required true ProtocolIE_ID (.required false Criticality (.required false UERadioCapabilityMatchResponseProtocolIEs_EntryValue .nil)))
/-- examples/tests/12-s1ap.rs:12028-12037 -/
def UERadioCapabilityMatchResponseProtocolIEs : Ty := .sequenceOf (some 0) (some 65535) false UERadioCapabilityMatchResponseProtocolIEs_Entry
/-- examples/tests/12-s1ap.rs:4992-4996 -/
def UERadioCapabilityMatchResponse : Ty := .sequence true 0 (.required false UERadioCapabilityMatchResponseProtocolIEs .nil)
/-- examples/tests/12-s1ap.rs:11942-11951 -/
def UERadioCapabilityIDMappingResponseProtocolIEs_EntryValue : Ty := .openType (.cons 58 false CriticalityDiagnostics (.cons 74 false UERadioCapability (.cons 314 false UERadioCapabilityID .nil)))
/-- examples/tests/12-s1ap.rs:11953-11960 -/
def UERadioCapabilityIDMappingResponseProtocolIEs_Entry : Ty := .sequence false 0 (.required true ProtocolIE_ID (.required false Criticality (.required false UERadioCapabilityIDMappingResponseProtocolIEs_EntryValue .nil)))
/-- examples/tests/12-s1ap.rs:11962-11971 -/
def UERadioCapabilityIDMappingResponseProtocolIEs : Ty := .sequenceOf (some 0) (some 65535) false UERadioCapabilityIDMappingResponseProtocolIEs_Entry
/-- examples/tests/12-s1ap.rs:4980-4984 -/
def UERadioCapabilityIDMappingResponse : Ty := .sequence true 0 (.required false UERadioCapabilityIDMappingResponseProtocolIEs .nil)
/-- examples/tests/12-s1ap.rs:11851-11862 -/
def UEContextSuspendResponseProtocolIEs_EntryValue : Ty := .openType (.cons 58 false CriticalityDiagnostics (.cons 0 false MME_UE_S1AP_ID (.cons 40 false SecurityContext (.cons 8 false ENB_UE_S1AP_ID .nil))))
/-- examples/tests/12-s1ap.rs:11864-11871 -/
def UEContextSuspendResponseProtocolIEs_Entry : Ty := .sequence false 0 (.required true ProtocolIE_ID (.required false Criticality (.required false UEContextSuspendResponseProtocolIEs_EntryValue .nil)))
/-- examples/tests/12-s1ap.rs:11873-11880 -/
def UEContextSuspendResponseProtocolIEs : Ty := .sequenceOf (some 0) (some 65535) false UEContextSuspendResponseProtocolIEs_Entry
/-- examples/tests/12-s1ap.rs:4937-4941 -/
def UEContextSuspendResponse : Ty := .sequence true 0 (.required false UEContextSuspendResponseProtocolIEs .nil)
/-- examples/tests/12-s1ap.rs:11779-11794 -/
def UEContextResumeResponseProtocolIEs_EntryValue : Ty := .openType (.cons 58 false CriticalityDiagnostics (.cons 237 false E_RABFailedToResumeListResumeRes (.cons 0 false MME_UE_S1AP_ID (.cons 283 false PendingDataIndication (.cons 40 false SecurityContext (.cons 8 false ENB_UE_S1AP_ID .nil))))))
/-- examples/tests/12-s1ap.rs:11796-11803 -/
def UEContextResumeResponseProtocolIEs_Entry : Ty := .sequence false 0 (.required true ProtocolIE_ID (.required false Criticality (.required false UEContextResumeResponseProtocolIEs_EntryValue .nil)))
/-- examples/tests/12-s1ap.rs:11805-11812 -/
def UEContextResumeResponseProtocolIEs : Ty := .sequenceOf (some 0) (some 65535) false UEContextResumeResponseProtocolIEs_Entry
/-- examples/tests/12-s1ap.rs:4925-4929 -/
def UEContextResumeResponse : Ty := .sequence true 0 (.required false UEContextResumeResponseProtocolIEs .nil)
/-- examples/tests/12-s1ap.rs:11645-11664 -/
def UEContextReleaseCompleteProtocolIEs_EntryValue : Ty := .openType (.cons 212 false CellIdentifierAndCELevelForCECapableUEs (.cons 58 false CriticalityDiagnostics (.cons 213 false InformationOnRecommendedCellsAndENBsForPaging (.cons 0 false MME_UE_S1AP_ID (.cons 264 false SecondaryRATDataUsageReportList (.cons 297 false TimeSinceSecondaryNodeRelease (.cons 189 false UserLocationInformation (.cons 8 false ENB_UE_S1AP_ID .nil))))))))
/-- examples/tests/12-s1ap.rs:11666-11673 -/
def UEContextReleaseCompleteProtocolIEs_Entry : Ty := .sequence false 0 (.required true ProtocolIE_ID (.required false Criticality (.required false UEContextReleaseCompleteProtocolIEs_EntryValue .nil)))
/-- examples/tests/12-s1ap.rs:11675-11682 -/
def UEContextReleaseCompleteProtocolIEs : Ty := .sequenceOf (some 0) (some 65535) false UEContextReleaseCompleteProtocolIEs_Entry
/-- examples/tests/12-s1ap.rs:4901-4905 -/
def UEContextReleaseComplete : Ty := .sequence true 0 (.required false UEContextReleaseCompleteProtocolIEs .nil)
/-- examples/tests/12-s1ap.rs:11419-11430 -/
def UEContextModificationConfirmProtocolIEs_EntryValue : Ty := .openType (.cons 146 false CSGMembershipStatus (.cons 58 false CriticalityDiagnostics (.cons 0 false MME_UE_S1AP_ID (.cons 8 false ENB_UE_S1AP_ID .nil))))
/-- examples/tests/12-s1ap.rs:11432-11439 -/
def UEContextModificationConfirmProtocolIEs_Entry : Ty := .sequence false 0 (.required true ProtocolIE_ID (.required false Criticality (.required false UEContextModificationConfirmProtocolIEs_EntryValue .nil)))
/-- examples/tests/12-s1ap.rs:11441-11450 -/
def UEContextModificationConfirmProtocolIEs : Ty := .sequenceOf (some 0) (some 65535) false UEContextModificationConfirmProtocolIEs_Entry
/-- examples/tests/12-s1ap.rs:4865-4869 -/
def UEContextModificationConfirm : Ty := .sequence true 0 (.required false UEContextModificationConfirmProtocolIEs .nil)
/-- examples/tests/12-s1ap.rs:11587-11596 -/
def UEContextModificationResponseProtocolIEs_EntryValue : Ty := .openType (.cons 58 false CriticalityDiagnostics (.cons 0 false MME_UE_S1AP_ID (.cons 8 false ENB_UE_S1AP_ID .nil)))
/-- examples/tests/12-s1ap.rs:11598-11605 -/
def UEContextModificationResponseProtocolIEs_Entry : Ty := .sequence false 0 (.required true ProtocolIE_ID (.required false Criticality (.required false UEContextModificationResponseProtocolIEs_EntryValue .nil)))
/-- examples/tests/12-s1ap.rs:11607-11616 -/
def UEContextModificationResponseProtocolIEs : Ty := .sequenceOf (some 0) (some 65535) false UEContextModificationResponseProtocolIEs_Entry
/-- examples/tests/12-s1ap.rs:4889-4893 -/
def UEContextModificationResponse : Ty := .sequence true 0 (.required false UEContextModificationResponseProtocolIEs .nil)
/-- examples/tests/12-s1ap.rs:10457-10476 -/
def S1SetupResponseProtocolIEs_EntryValue : Ty := .openType (.cons 58 false CriticalityDiagnostics (.cons 303 false IAB_Supported (.cons 163 false MMERelaySupportIndicator (.cons 61 false MMEname (.cons 87 false RelativeMMECapacity (.cons 247 false ServedDCNs (.cons 105 false ServedGUMMEIs (.cons 228 false UE_RetentionInformation .nil))))))))
/-- examples/tests/12-s1ap.rs:10478-10485 -/
def S1SetupResponseProtocolIEs_Entry : Ty := .sequence false 0 (.required true ProtocolIE_ID (.required false Criticality (.required false S1SetupResponseProtocolIEs_EntryValue .nil)))
/-- examples/tests/12-s1ap.rs:10487-10494 -/
def S1SetupResponseProtocolIEs : Ty := .sequenceOf (some 0) (some 65535) false S1SetupResponseProtocolIEs_Entry
/-- examples/tests/12-s1ap.rs:4002-4006 -/
def S1SetupResponse : Ty := .sequence true 0 (.required false S1SetupResponseProtocolIEs .nil)
/-- examples/tests/12-s1ap.rs:10846-10893 -/
def SuccessfulOutcomeValue : Ty := .openType (.cons 50 false E_RABModificationConfirm (.cons 6 false E_RABModifyResponse (.cons 7 false E_RABReleaseResponse (.cons 5 false E_RABSetupResponse (.cons 29 false ENBConfigurationUpdateAcknowledge (.cons 4 false HandoverCancelAcknowledge (.cons 0 false HandoverCommand (.cons 1 false HandoverRequestAcknowledge (.cons 9 false InitialContextSetupResponse (.cons 43 false KillResponse (.cons 30 false MMEConfigurationUpdateAcknowledge (.cons 3 false PathSwitchRequestAcknowledge (.cons 14 false ResetAcknowledge (.cons 17 false S1SetupResponse (.cons 21 false UEContextModificationResponse (.cons 53 false UEContextModificationConfirm (.cons 23 false UEContextReleaseComplete (.cons 56 false UEContextResumeResponse (.cons 55 false UEContextSuspendResponse (.cons 63 false UERadioCapabilityIDMappingResponse (.cons 48 false UERadioCapabilityMatchResponse (.cons 36 false WriteReplaceWarningResponse .nil))))))))))))))))))))))
/-- examples/tests/12-s1ap.rs:4374-4381 -/
def SuccessfulOutcome : Ty := .sequence false 0 (.required true ProcedureCode (.required false Criticality (.required false SuccessfulOutcomeValue .nil)))
/-- examples/tests/12-s1ap.rs:3979-3988 -/
def S1AP_PDU : Ty := .choice 0 2 true (.cons 0 false InitiatingMessage (.cons 1 false SuccessfulOutcome (.cons 2 false UnsuccessfulOutcome .nil)))
/-- examples/tests/12-s1ap.rs:4061-4063 -/
def SONtransferApplicationIdentity : Ty := .enumerated .u8 (some 0) (some 0) true
/-- examples/tests/12-s1ap.rs:4068-4085 -/
def SONtransferCause : Ty := .choice 0 0 true (.cons 0 false CellLoadReportingCause (.cons 0 true CellLoadReportingCause (.cons 1 true CellLoadReportingCause (.cons 2 true HOReportingCause (.cons 3 true CellActivationCause (.cons 4 true CellStateIndicationCause (.cons 5 true FailureEventReportingCause .nil)))))))
/-- examples/tests/12-s1ap.rs:10559-10561 -/
def NULL_52 : Ty := .null
/-- examples/tests/12-s1ap.rs:4087-4104 -/
def SONtransferRequestContainer : Ty := .choice 0 0 true (.cons 0 false NULL_52 (.cons 0 true MultiCellLoadReportingRequest (.cons 1 true EventTriggeredCellLoadReportingRequest (.cons 2 true HOReport (.cons 3 true CellActivationRequest (.cons 4 true CellStateIndication (.cons 5 true FailureEventReport .nil)))))))
/-- examples/tests/12-s1ap.rs:10571-10573 -/
def NULL_55 : Ty := .null
/-- examples/tests/12-s1ap.rs:10567-10569 -/
def NULL_54 : Ty := .null
/-- examples/tests/12-s1ap.rs:10563-10565 -/
def NULL_53 : Ty := .null
/-- examples/tests/12-s1ap.rs:4106-4123 -/
def SONtransferResponseContainer : Ty := .choice 0 0 true (.cons 0 false CellLoadReportingResponse (.cons 0 true MultiCellLoadReportingResponse (.cons 1 true EventTriggeredCellLoadReportingResponse (.cons 2 true NULL_53 (.cons 3 true CellActivationResponse (.cons 4 true NULL_54 (.cons 5 true NULL_55 .nil)))))))
/-- examples/tests/12-s1ap.rs:4282-4284 -/
def SourceBSS_ToTargetBSS_TransparentContainer : Ty := .octetstring none none false
/-- examples/tests/12-s1ap.rs:10725-10727 -/
def SourceNgRanNode_IDIE_Extensions_Entry : Ty := .sequence false 0 .nil
/-- examples/tests/12-s1ap.rs:10729-10736 -/
def SourceNgRanNode_IDIE_Extensions : Ty := .sequenceOf (some 1) (some 65535) false SourceNgRanNode_IDIE_Extensions_Entry
/-- examples/tests/12-s1ap.rs:4286-4293 -/
def SourceNgRanNode_ID : Ty := .sequence true 1 (.required false Global_RAN_NODE_ID (.required false FiveGSTAI (.optional 0 SourceNgRanNode_IDIE_Extensions .nil)))
/-- examples/tests/12-s1ap.rs:4295-4297 -/
def SourceNgRanNode_ToTargetNgRanNode_TransparentContainer : Ty := .octetstring none none false
/-- examples/tests/12-s1ap.rs:4308-4310 -/
def SourceNodeID_Extension : Ty := .sequence false 0 .nil
/-- examples/tests/12-s1ap.rs:4299-4306 -/
def SourceNodeID : Ty := .choice 0 1 false (.cons 0 false SourceNgRanNode_ID (.cons 1 false SourceNodeID_Extension .nil))
/-- examples/tests/12-s1ap.rs:4320-4322 -/
def SourceRNC_ToTargetRNC_TransparentContainer : Ty := .octetstring none none false
/-- examples/tests/12-s1ap.rs:4760-4762 -/
def UE_HistoryInformationFromTheUE : Ty := .octetstring none none false
/-- examples/tests/12-s1ap.rs:10751-10770 -/
def SourceeNB_ToTargeteNB_TransparentContainerIE_Extensions_EntryExtensionValue : Ty := .openType (.cons 299 false AdditionalRRMPriorityIndex (.cons 300 false ContextatSource (.cons 326 false EmergencyIndicator (.cons 296 false IMSvoiceEPSfallbackfrom5G (.cons 311 false IntersystemMeasurementConfiguration (.cons 175 false MobilityInformation (.cons 312 false SourceNodeID (.cons 194 false UE_HistoryInformationFromTheUE .nil))))))))
/-- examples/tests/12-s1ap.rs:10772-10780 -/
def SourceeNB_ToTargeteNB_TransparentContainerIE_Extensions_Entry : Ty := .sequence false 0 (.required true ProtocolExtensionID (.required false Criticality (.required false SourceeNB_ToTargeteNB_TransparentContainerIE_Extensions_EntryExtensionValue .nil)))
/-- examples/tests/12-s1ap.rs:10782-10791 -/
def SourceeNB_ToTargeteNB_TransparentContainerIE_Extensions : Ty := .sequenceOf (some 1) (some 65535) false SourceeNB_ToTargeteNB_TransparentContainerIE_Extensions_Entry
/-- examples/tests/12-s1ap.rs:4756-4758 -/
def UE_HistoryInformation : Ty := .sequenceOf (some 1) (some 16) false LastVisitedCell_Item
/-- examples/tests/12-s1ap.rs:4333-4345 -/
def SourceeNB_ToTargeteNB_TransparentContainer : Ty := .sequence true 3 (.required false RRC_Container (.optional 0 E_RABInformationList (.required false EUTRAN_CGI (.optional 1 SubscriberProfileIDforRFP (.required false UE_HistoryInformation (.optional 2 SourceeNB_ToTargeteNB_TransparentContainerIE_Extensions .nil))))))
/-- examples/tests/12-s1ap.rs:4562-4564 -/
def TargetBSS_ToSourceBSS_TransparentContainer : Ty := .octetstring none none false
/-- examples/tests/12-s1ap.rs:4588-4590 -/
def TargetNgRanNode_ToSourceNgRanNode_TransparentContainer : Ty := .octetstring none none false
/-- examples/tests/12-s1ap.rs:4605-4607 -/
def TargetRNC_ToSourceRNC_TransparentContainer : Ty := .octetstring none none false
/-- examples/tests/12-s1ap.rs:11094-11099 -/
def TargeteNB_ToSourceeNB_TransparentContainerIE_Extensions_EntryExtensionValue : Ty := .openType (.cons 318 false DAPSResponseInfoList .nil)
/-- examples/tests/12-s1ap.rs:11101-11109 -/
def TargeteNB_ToSourceeNB_TransparentContainerIE_Extensions_Entry : Ty := .sequence false 0 (.required true ProtocolExtensionID (.required false Criticality (.required false TargeteNB_ToSourceeNB_TransparentContainerIE_Extensions_EntryExtensionValue .nil)))
/-- examples/tests/12-s1ap.rs:11111-11120 -/
def TargeteNB_ToSourceeNB_TransparentContainerIE_Extensions : Ty := .sequenceOf (some 1) (some 65535) false TargeteNB_ToSourceeNB_TransparentContainerIE_Extensions_Entry
/-- examples/tests/12-s1ap.rs:4618-4624 -/
def TargeteNB_ToSourceeNB_TransparentContainer : Ty := .sequence true 1 (.required false RRC_Container (.optional 0 TargeteNB_ToSourceeNB_TransparentContainerIE_Extensions .nil))

end Hampi.S1ap
