import Verif.Derive.Model
/-!
# The types of examples/tests/13-ngap.rs

Written by tools/transcribe.py from examples/tests/13-ngap.rs: one definition per item, its attributes read as
`Verif/Derive/Macro.lean` says the macro reads them, items after those they mention.
-/
namespace Hampi.Ngap

/-- examples/tests/13-ngap.rs:6862-6864 -/
def AMF_TNLAssociationSetupItemIE_Extensions_Entry : Ty := .sequence false 0 .nil
/-- examples/tests/13-ngap.rs:6866-6875 -/
def AMF_TNLAssociationSetupItemIE_Extensions : Ty := .sequenceOf (some 1) (some 65535) false AMF_TNLAssociationSetupItemIE_Extensions_Entry
/-- examples/tests/13-ngap.rs:8651-8653 -/
def EndpointIPAddressAndPortIE_Extensions_Entry : Ty := .sequence false 0 .nil
/-- examples/tests/13-ngap.rs:8655-8664 -/
def EndpointIPAddressAndPortIE_Extensions : Ty := .sequenceOf (some 1) (some 65535) false EndpointIPAddressAndPortIE_Extensions_Entry
/-- examples/tests/13-ngap.rs:4625-4627 -/
def PortNumber : Ty := .octetstring (some 2) (some 2) false
/-- examples/tests/13-ngap.rs:6088-6090 -/
def TransportLayerAddress : Ty := .bitstring (some 1) (some 160) true
/-- examples/tests/13-ngap.rs:1647-1654 -/
def EndpointIPAddressAndPort : Ty := .sequence false 1 (.required false TransportLayerAddress (.required false PortNumber (.optional 0 EndpointIPAddressAndPortIE_Extensions .nil)))
/-- examples/tests/13-ngap.rs:7513-7518 -/
def CPTransportLayerInformationchoice_ExtensionsValue : Ty := .openType (.cons 169 false EndpointIPAddressAndPort .nil)
/-- examples/tests/13-ngap.rs:1078-1080 -/
def Criticality : Ty := .enumerated .u8 (some 0) (some 2) false
/-- examples/tests/13-ngap.rs:4702-4704 -/
def ProtocolIE_ID : Ty := .integer .u16 (some 0) (some 65535) false
/-- examples/tests/13-ngap.rs:7520-7527 -/
def CPTransportLayerInformationchoice_Extensions : Ty := .sequence false 0 (.required true ProtocolIE_ID (.required false Criticality (.required false CPTransportLayerInformationchoice_ExtensionsValue .nil)))
/-- examples/tests/13-ngap.rs:559-566 -/
def CPTransportLayerInformation : Ty := .choice 0 1 false (.cons 0 false TransportLayerAddress (.cons 1 false CPTransportLayerInformationchoice_Extensions .nil))
/-- examples/tests/13-ngap.rs:6-12 -/
def AMF_TNLAssociationSetupItem : Ty := .sequence true 1 (.required false CPTransportLayerInformation (.optional 0 AMF_TNLAssociationSetupItemIE_Extensions .nil))
/-- examples/tests/13-ngap.rs:14-16 -/
def AMF_TNLAssociationSetupList : Ty := .sequenceOf (some 1) (some 32) false AMF_TNLAssociationSetupItem
/-- examples/tests/13-ngap.rs:6877-6879 -/
def AMF_TNLAssociationToAddItemIE_Extensions_Entry : Ty := .sequence false 0 .nil
/-- examples/tests/13-ngap.rs:6881-6890 -/
def AMF_TNLAssociationToAddItemIE_Extensions : Ty := .sequenceOf (some 1) (some 65535) false AMF_TNLAssociationToAddItemIE_Extensions_Entry
/-- examples/tests/13-ngap.rs:5848-5850 -/
def TNLAddressWeightFactor : Ty := .integer .u8 (some 0) (some 255) false
/-- examples/tests/13-ngap.rs:5865-5867 -/
def TNLAssociationUsage : Ty := .enumerated .u8 (some 0) (some 2) true
/-- examples/tests/13-ngap.rs:18-27 -/
def AMF_TNLAssociationToAddItem : Ty := .sequence true 2 (.required false CPTransportLayerInformation (.optional 0 TNLAssociationUsage (.required false TNLAddressWeightFactor (.optional 1 AMF_TNLAssociationToAddItemIE_Extensions .nil))))
/-- examples/tests/13-ngap.rs:29-31 -/
def AMF_TNLAssociationToAddList : Ty := .sequenceOf (some 1) (some 32) false AMF_TNLAssociationToAddItem
/-- examples/tests/13-ngap.rs:6892-6897 -/
def AMF_TNLAssociationToRemoveItemIE_Extensions_EntryExtensionValue : Ty := .openType (.cons 168 false CPTransportLayerInformation .nil)
/-- examples/tests/13-ngap.rs:4698-4700 -/
def ProtocolExtensionID : Ty := .integer .u16 (some 0) (some 65535) false
/-- examples/tests/13-ngap.rs:6899-6906 -/
def AMF_TNLAssociationToRemoveItemIE_Extensions_Entry : Ty := .sequence false 0 (.required true ProtocolExtensionID (.required false Criticality (.required false AMF_TNLAssociationToRemoveItemIE_Extensions_EntryExtensionValue .nil)))
/-- examples/tests/13-ngap.rs:6908-6917 -/
def AMF_TNLAssociationToRemoveItemIE_Extensions : Ty := .sequenceOf (some 1) (some 65535) false AMF_TNLAssociationToRemoveItemIE_Extensions_Entry
/-- examples/tests/13-ngap.rs:33-39 -/
def AMF_TNLAssociationToRemoveItem : Ty := .sequence true 1 (.required false CPTransportLayerInformation (.optional 0 AMF_TNLAssociationToRemoveItemIE_Extensions .nil))
/-- examples/tests/13-ngap.rs:41-43 -/
def AMF_TNLAssociationToRemoveList : Ty := .sequenceOf (some 1) (some 32) false AMF_TNLAssociationToRemoveItem
/-- examples/tests/13-ngap.rs:6919-6921 -/
def AMF_TNLAssociationToUpdateItemIE_Extensions_Entry : Ty := .sequence false 0 .nil
/-- examples/tests/13-ngap.rs:6923-6932 -/
def AMF_TNLAssociationToUpdateItemIE_Extensions : Ty := .sequenceOf (some 1) (some 65535) false AMF_TNLAssociationToUpdateItemIE_Extensions_Entry
/-- examples/tests/13-ngap.rs:45-55 -/
def AMF_TNLAssociationToUpdateItem : Ty := .sequence true 3 (.required false CPTransportLayerInformation (.optional 0 TNLAssociationUsage (.optional 1 TNLAddressWeightFactor (.optional 2 AMF_TNLAssociationToUpdateItemIE_Extensions .nil))))
/-- examples/tests/13-ngap.rs:57-59 -/
def AMF_TNLAssociationToUpdateList : Ty := .sequenceOf (some 1) (some 32) false AMF_TNLAssociationToUpdateItem
/-- examples/tests/13-ngap.rs:61-63 -/
def AMF_UE_NGAP_ID : Ty := .integer .u64 (some 0) (some 1099511627775) false
/-- examples/tests/13-ngap.rs:13686-13688 -/
def S_NSSAIIE_Extensions_Entry : Ty := .sequence false 0 .nil
/-- examples/tests/13-ngap.rs:13690-13697 -/
def S_NSSAIIE_Extensions : Ty := .sequenceOf (some 1) (some 65535) false S_NSSAIIE_Extensions_Entry
/-- examples/tests/13-ngap.rs:5316-5318 -/
def SD : Ty := .octetstring (some 3) (some 3) false
/-- examples/tests/13-ngap.rs:5386-5388 -/
def SST : Ty := .octetstring (some 1) (some 1) false
/-- examples/tests/13-ngap.rs:5302-5310 -/
def S_NSSAI : Ty := .sequence true 2 (.required false SST (.optional 0 SD (.optional 1 S_NSSAIIE_Extensions .nil)))
/-- examples/tests/13-ngap.rs:4949-4951 -/
def RAN_UE_NGAP_ID : Ty := .integer .u32 (some 0) (some 4294967295) false
/-- examples/tests/13-ngap.rs:7160-7162 -/
def AllowedNSSAI_ItemIE_Extensions_Entry : Ty := .sequence false 0 .nil
/-- examples/tests/13-ngap.rs:7164-7171 -/
def AllowedNSSAI_ItemIE_Extensions : Ty := .sequenceOf (some 1) (some 65535) false AllowedNSSAI_ItemIE_Extensions_Entry
/-- examples/tests/13-ngap.rs:199-205 -/
def AllowedNSSAI_Item : Ty := .sequence true 1 (.required false S_NSSAI (.optional 0 AllowedNSSAI_ItemIE_Extensions .nil))
/-- examples/tests/13-ngap.rs:195-197 -/
def AllowedNSSAI : Ty := .sequenceOf (some 1) (some 8) false AllowedNSSAI_Item
/-- examples/tests/13-ngap.rs:6934-6945 -/
def AMFCPRelocationIndicationProtocolIEs_EntryValue : Ty := .openType (.cons 10 false AMF_UE_NGAP_ID (.cons 0 false AllowedNSSAI (.cons 85 false RAN_UE_NGAP_ID (.cons 148 false S_NSSAI .nil))))
/-- examples/tests/13-ngap.rs:6947-6954 -/
def AMFCPRelocationIndicationProtocolIEs_Entry : Ty := .sequence false 0 (.required true ProtocolIE_ID (.required false Criticality (.required false AMFCPRelocationIndicationProtocolIEs_EntryValue .nil)))
/-- examples/tests/13-ngap.rs:6956-6965 -/
def AMFCPRelocationIndicationProtocolIEs : Ty := .sequenceOf (some 0) (some 65535) false AMFCPRelocationIndicationProtocolIEs_Entry
/-- examples/tests/13-ngap.rs:65-69 -/
def AMFCPRelocationIndication : Ty := .sequence true 0 (.required false AMFCPRelocationIndicationProtocolIEs .nil)
/-- examples/tests/13-ngap.rs:1961-1963 -/
def GUAMIType : Ty := .enumerated .u8 (some 0) (some 1) true
/-- examples/tests/13-ngap.rs:13960-13965 -/
def ServedGUAMIItemIE_Extensions_EntryExtensionValue : Ty := .openType (.cons 176 false GUAMIType .nil)
/-- examples/tests/13-ngap.rs:13967-13974 -/
def ServedGUAMIItemIE_Extensions_Entry : Ty := .sequence false 0 (.required true ProtocolExtensionID (.required false Criticality (.required false ServedGUAMIItemIE_Extensions_EntryExtensionValue .nil)))
/-- examples/tests/13-ngap.rs:13976-13983 -/
def ServedGUAMIItemIE_Extensions : Ty := .sequenceOf (some 1) (some 65535) false ServedGUAMIItemIE_Extensions_Entry
/-- examples/tests/13-ngap.rs:89-96 -/
def AMFName : Ty := .charstring .printable (some 1) (some 150) true
/-- examples/tests/13-ngap.rs:8945-8947 -/
def GUAMIIE_Extensions_Entry : Ty := .sequence false 0 .nil
/-- examples/tests/13-ngap.rs:8949-8956 -/
def GUAMIIE_Extensions : Ty := .sequenceOf (some 1) (some 65535) false GUAMIIE_Extensions_Entry
/-- examples/tests/13-ngap.rs:122-124 -/
def AMFPointer : Ty := .bitstring (some 6) (some 6) false
/-- examples/tests/13-ngap.rs:130-132 -/
def AMFSetID : Ty := .bitstring (some 10) (some 10) false
/-- examples/tests/13-ngap.rs:126-128 -/
def AMFRegionID : Ty := .bitstring (some 8) (some 8) false
/-- examples/tests/13-ngap.rs:4334-4336 -/
def PLMNIdentity : Ty := .octetstring (some 3) (some 3) false
/-- examples/tests/13-ngap.rs:1950-1959 -/
def GUAMI : Ty := .sequence true 1 (.required false PLMNIdentity (.required false AMFRegionID (.required false AMFSetID (.required false AMFPointer (.optional 0 GUAMIIE_Extensions .nil)))))
/-- examples/tests/13-ngap.rs:5513-5521 -/
def ServedGUAMIItem : Ty := .sequence true 2 (.required false GUAMI (.optional 0 AMFName (.optional 1 ServedGUAMIItemIE_Extensions .nil)))
/-- examples/tests/13-ngap.rs:5523-5530 -/
def ServedGUAMIList : Ty := .sequenceOf (some 1) (some 256) false ServedGUAMIItem
/-- examples/tests/13-ngap.rs:5220-5222 -/
def RelativeAMFCapacity : Ty := .integer .u8 (some 0) (some 255) false
/-- examples/tests/13-ngap.rs:10762-10764 -/
def NPN_Supportchoice_Extensions : Ty := .sequence false 0 .nil
/-- examples/tests/13-ngap.rs:3099-3101 -/
def NID : Ty := .bitstring (some 44) (some 44) false
/-- examples/tests/13-ngap.rs:3132-3139 -/
def NPN_Support : Ty := .choice 0 1 false (.cons 0 false NID (.cons 1 false NPN_Supportchoice_Extensions .nil))
/-- examples/tests/13-ngap.rs:14013-14015 -/
def SliceSupportItemIE_Extensions_Entry : Ty := .sequence false 0 .nil
/-- examples/tests/13-ngap.rs:14017-14024 -/
def SliceSupportItemIE_Extensions : Ty := .sequenceOf (some 1) (some 65535) false SliceSupportItemIE_Extensions_Entry
/-- examples/tests/13-ngap.rs:5569-5575 -/
def SliceSupportItem : Ty := .sequence true 1 (.required false S_NSSAI (.optional 0 SliceSupportItemIE_Extensions .nil))
/-- examples/tests/13-ngap.rs:1820-1827 -/
def ExtendedSliceSupportList : Ty := .sequenceOf (some 1) (some 65535) false SliceSupportItem
/-- examples/tests/13-ngap.rs:12407-12414 -/
def PLMNSupportItemIE_Extensions_EntryExtensionValue : Ty := .openType (.cons 270 false ExtendedSliceSupportList (.cons 258 false NPN_Support .nil))
/-- examples/tests/13-ngap.rs:12416-12423 -/
def PLMNSupportItemIE_Extensions_Entry : Ty := .sequence false 0 (.required true ProtocolExtensionID (.required false Criticality (.required false PLMNSupportItemIE_Extensions_EntryExtensionValue .nil)))
/-- examples/tests/13-ngap.rs:12425-12432 -/
def PLMNSupportItemIE_Extensions : Ty := .sequenceOf (some 1) (some 65535) false PLMNSupportItemIE_Extensions_Entry
/-- examples/tests/13-ngap.rs:5577-5584 -/
def SliceSupportList : Ty := .sequenceOf (some 1) (some 1024) false SliceSupportItem
/-- examples/tests/13-ngap.rs:4338-4345 -/
def PLMNSupportItem : Ty := .sequence true 1 (.required false PLMNIdentity (.required false SliceSupportList (.optional 0 PLMNSupportItemIE_Extensions .nil)))
/-- examples/tests/13-ngap.rs:4347-4349 -/
def PLMNSupportList : Ty := .sequenceOf (some 1) (some 12) false PLMNSupportItem
/-- examples/tests/13-ngap.rs:8770-8772 -/
def Extended_AMFNameIE_Extensions_Entry : Ty := .sequence false 0 .nil
/-- examples/tests/13-ngap.rs:8774-8781 -/
def Extended_AMFNameIE_Extensions : Ty := .sequenceOf (some 1) (some 65535) false Extended_AMFNameIE_Extensions_Entry
/-- examples/tests/13-ngap.rs:98-100 -/
def AMFNameUTF8String : Ty := .charstring .utf8 (some 1) (some 150) true
/-- examples/tests/13-ngap.rs:102-109 -/
def AMFNameVisibleString : Ty := .charstring .visible (some 1) (some 150) true
/-- examples/tests/13-ngap.rs:1777-1786 -/
def Extended_AMFName : Ty := .sequence true 3 (.optional 0 AMFNameVisibleString (.optional 1 AMFNameUTF8String (.optional 2 Extended_AMFNameIE_Extensions .nil)))
/-- examples/tests/13-ngap.rs:6967-6986 -/
def AMFConfigurationUpdateProtocolIEs_EntryValue : Ty := .openType (.cons 6 false AMF_TNLAssociationToAddList (.cons 7 false AMF_TNLAssociationToRemoveList (.cons 8 false AMF_TNLAssociationToUpdateList (.cons 1 false AMFName (.cons 274 false Extended_AMFName (.cons 80 false PLMNSupportList (.cons 86 false RelativeAMFCapacity (.cons 96 false ServedGUAMIList .nil))))))))
/-- examples/tests/13-ngap.rs:6988-6995 -/
def AMFConfigurationUpdateProtocolIEs_Entry : Ty := .sequence false 0 (.required true ProtocolIE_ID (.required false Criticality (.required false AMFConfigurationUpdateProtocolIEs_EntryValue .nil)))
/-- examples/tests/13-ngap.rs:6997-7004 -/
def AMFConfigurationUpdateProtocolIEs : Ty := .sequenceOf (some 0) (some 65535) false AMFConfigurationUpdateProtocolIEs_Entry
/-- examples/tests/13-ngap.rs:71-75 -/
def AMFConfigurationUpdate : Ty := .sequence true 0 (.required false AMFConfigurationUpdateProtocolIEs .nil)
/-- examples/tests/13-ngap.rs:7934-7936 -/
def CriticalityDiagnosticsIE_Extensions_Entry : Ty := .sequence false 0 .nil
/-- examples/tests/13-ngap.rs:7938-7945 -/
def CriticalityDiagnosticsIE_Extensions : Ty := .sequenceOf (some 1) (some 65535) false CriticalityDiagnosticsIE_Extensions_Entry
/-- examples/tests/13-ngap.rs:7947-7949 -/
def CriticalityDiagnostics_IE_ItemIE_Extensions_Entry : Ty := .sequence false 0 .nil
/-- examples/tests/13-ngap.rs:7951-7960 -/
def CriticalityDiagnostics_IE_ItemIE_Extensions : Ty := .sequenceOf (some 1) (some 65535) false CriticalityDiagnostics_IE_ItemIE_Extensions_Entry
/-- examples/tests/13-ngap.rs:6101-6103 -/
def TypeOfError : Ty := .enumerated .u8 (some 0) (some 1) true
/-- examples/tests/13-ngap.rs:1102-1110 -/
def CriticalityDiagnostics_IE_Item : Ty := .sequence true 1 (.required false Criticality (.required false ProtocolIE_ID (.required false TypeOfError (.optional 0 CriticalityDiagnostics_IE_ItemIE_Extensions .nil))))
/-- examples/tests/13-ngap.rs:1112-1119 -/
def CriticalityDiagnostics_IE_List : Ty := .sequenceOf (some 1) (some 256) false CriticalityDiagnostics_IE_Item
/-- examples/tests/13-ngap.rs:6092-6094 -/
def TriggeringMessage : Ty := .enumerated .u8 (some 0) (some 2) false
/-- examples/tests/13-ngap.rs:4685-4687 -/
def ProcedureCode : Ty := .integer .u8 (some 0) (some 255) false
/-- examples/tests/13-ngap.rs:1087-1100 -/
def CriticalityDiagnostics : Ty := .sequence true 5 (.optional 0 ProcedureCode (.optional 1 TriggeringMessage (.optional 2 Criticality (.optional 3 CriticalityDiagnostics_IE_List (.optional 4 CriticalityDiagnosticsIE_Extensions .nil)))))
/-- examples/tests/13-ngap.rs:14283-14285 -/
def TNLAssociationItemIE_Extensions_Entry : Ty := .sequence false 0 .nil
/-- examples/tests/13-ngap.rs:14287-14294 -/
def TNLAssociationItemIE_Extensions : Ty := .sequenceOf (some 1) (some 65535) false TNLAssociationItemIE_Extensions_Entry
/-- examples/tests/13-ngap.rs:7640-7642 -/
def Causechoice_Extensions : Ty := .sequence false 0 .nil
/-- examples/tests/13-ngap.rs:704-706 -/
def CauseMisc : Ty := .enumerated .u8 (some 0) (some 5) true
/-- examples/tests/13-ngap.rs:726-728 -/
def CauseProtocol : Ty := .enumerated .u8 (some 0) (some 6) true
/-- examples/tests/13-ngap.rs:716-718 -/
def CauseNas : Ty := .enumerated .u8 (some 0) (some 3) true
/-- examples/tests/13-ngap.rs:790-792 -/
def CauseTransport : Ty := .enumerated .u8 (some 0) (some 1) true
/-- examples/tests/13-ngap.rs:739-741 -/
def CauseRadioNetwork : Ty := .enumerated .u8 (some 0) (some 44) true
/-- examples/tests/13-ngap.rs:687-702 -/
def Cause : Ty := .choice 0 5 false (.cons 0 false CauseRadioNetwork (.cons 1 false CauseTransport (.cons 2 false CauseNas (.cons 3 false CauseProtocol (.cons 4 false CauseMisc (.cons 5 false Causechoice_Extensions .nil))))))
/-- examples/tests/13-ngap.rs:5852-5859 -/
def TNLAssociationItem : Ty := .sequence true 1 (.required false CPTransportLayerInformation (.required false Cause (.optional 0 TNLAssociationItemIE_Extensions .nil)))
/-- examples/tests/13-ngap.rs:5861-5863 -/
def TNLAssociationList : Ty := .sequenceOf (some 1) (some 32) false TNLAssociationItem
/-- examples/tests/13-ngap.rs:7006-7015 -/
def AMFConfigurationUpdateAcknowledgeProtocolIEs_EntryValue : Ty := .openType (.cons 4 false TNLAssociationList (.cons 5 false AMF_TNLAssociationSetupList (.cons 19 false CriticalityDiagnostics .nil)))
/-- examples/tests/13-ngap.rs:7017-7024 -/
def AMFConfigurationUpdateAcknowledgeProtocolIEs_Entry : Ty := .sequence false 0 (.required true ProtocolIE_ID (.required false Criticality (.required false AMFConfigurationUpdateAcknowledgeProtocolIEs_EntryValue .nil)))
/-- examples/tests/13-ngap.rs:7026-7035 -/
def AMFConfigurationUpdateAcknowledgeProtocolIEs : Ty := .sequenceOf (some 0) (some 65535) false AMFConfigurationUpdateAcknowledgeProtocolIEs_Entry
/-- examples/tests/13-ngap.rs:77-81 -/
def AMFConfigurationUpdateAcknowledge : Ty := .sequence true 0 (.required false AMFConfigurationUpdateAcknowledgeProtocolIEs .nil)
/-- examples/tests/13-ngap.rs:6011-6013 -/
def TimeToWait : Ty := .enumerated .u8 (some 0) (some 5) true
/-- examples/tests/13-ngap.rs:7037-7046 -/
def AMFConfigurationUpdateFailureProtocolIEs_EntryValue : Ty := .openType (.cons 15 false Cause (.cons 19 false CriticalityDiagnostics (.cons 107 false TimeToWait .nil)))
/-- examples/tests/13-ngap.rs:7048-7055 -/
def AMFConfigurationUpdateFailureProtocolIEs_Entry : Ty := .sequence false 0 (.required true ProtocolIE_ID (.required false Criticality (.required false AMFConfigurationUpdateFailureProtocolIEs_EntryValue .nil)))
/-- examples/tests/13-ngap.rs:7057-7066 -/
def AMFConfigurationUpdateFailureProtocolIEs : Ty := .sequenceOf (some 0) (some 65535) false AMFConfigurationUpdateFailureProtocolIEs_Entry
/-- examples/tests/13-ngap.rs:83-87 -/
def AMFConfigurationUpdateFailure : Ty := .sequence true 0 (.required false AMFConfigurationUpdateFailureProtocolIEs .nil)
/-- examples/tests/13-ngap.rs:7068-7070 -/
def AMFPagingTargetchoice_Extensions : Ty := .sequence false 0 .nil
/-- examples/tests/13-ngap.rs:14171-14173 -/
def TAIIE_Extensions_Entry : Ty := .sequence false 0 .nil
/-- examples/tests/13-ngap.rs:14175-14182 -/
def TAIIE_Extensions : Ty := .sequenceOf (some 1) (some 65535) false TAIIE_Extensions_Entry
/-- examples/tests/13-ngap.rs:5692-5694 -/
def TAC : Ty := .octetstring (some 3) (some 3) false
/-- examples/tests/13-ngap.rs:5696-5703 -/
def TAI : Ty := .sequence true 1 (.required false PLMNIdentity (.required false TAC (.optional 0 TAIIE_Extensions .nil)))
/-- examples/tests/13-ngap.rs:9069-9071 -/
def GlobalW_AGF_IDIE_Extensions_Entry : Ty := .sequence false 0 .nil
/-- examples/tests/13-ngap.rs:9073-9080 -/
def GlobalW_AGF_IDIE_Extensions : Ty := .sequenceOf (some 1) (some 65535) false GlobalW_AGF_IDIE_Extensions_Entry
/-- examples/tests/13-ngap.rs:15921-15923 -/
def W_AGF_IDchoice_Extensions : Ty := .sequence false 0 .nil
/-- examples/tests/13-ngap.rs:15917-15919 -/
def BIT_STRING_93 : Ty := .bitstring (some 16) (some 16) true
/-- examples/tests/13-ngap.rs:6712-6719 -/
def W_AGF_ID : Ty := .choice 0 1 false (.cons 0 false BIT_STRING_93 (.cons 1 false W_AGF_IDchoice_Extensions .nil))
/-- examples/tests/13-ngap.rs:2054-2061 -/
def GlobalW_AGF_ID : Ty := .sequence true 1 (.required false PLMNIdentity (.required false W_AGF_ID (.optional 0 GlobalW_AGF_IDIE_Extensions .nil)))
/-- examples/tests/13-ngap.rs:9056-9058 -/
def GlobalTWIF_IDIE_Extensions_Entry : Ty := .sequence false 0 .nil
/-- examples/tests/13-ngap.rs:9060-9067 -/
def GlobalTWIF_IDIE_Extensions : Ty := .sequenceOf (some 1) (some 65535) false GlobalTWIF_IDIE_Extensions_Entry
/-- examples/tests/13-ngap.rs:14330-14332 -/
def TWIF_IDchoice_Extensions : Ty := .sequence false 0 .nil
/-- examples/tests/13-ngap.rs:14326-14328 -/
def BIT_STRING_82 : Ty := .bitstring (some 32) (some 32) true
/-- examples/tests/13-ngap.rs:5899-5906 -/
def TWIF_ID : Ty := .choice 0 1 false (.cons 0 false BIT_STRING_82 (.cons 1 false TWIF_IDchoice_Extensions .nil))
/-- examples/tests/13-ngap.rs:2045-2052 -/
def GlobalTWIF_ID : Ty := .sequence true 1 (.required false PLMNIdentity (.required false TWIF_ID (.optional 0 GlobalTWIF_IDIE_Extensions .nil)))
/-- examples/tests/13-ngap.rs:9043-9045 -/
def GlobalTNGF_IDIE_Extensions_Entry : Ty := .sequence false 0 .nil
/-- examples/tests/13-ngap.rs:9047-9054 -/
def GlobalTNGF_IDIE_Extensions : Ty := .sequenceOf (some 1) (some 65535) false GlobalTNGF_IDIE_Extensions_Entry
/-- examples/tests/13-ngap.rs:14279-14281 -/
def TNGF_IDchoice_Extensions : Ty := .sequence false 0 .nil
/-- examples/tests/13-ngap.rs:14275-14277 -/
def BIT_STRING_81 : Ty := .bitstring (some 32) (some 32) true
/-- examples/tests/13-ngap.rs:5839-5846 -/
def TNGF_ID : Ty := .choice 0 1 false (.cons 0 false BIT_STRING_81 (.cons 1 false TNGF_IDchoice_Extensions .nil))
/-- examples/tests/13-ngap.rs:2036-2043 -/
def GlobalTNGF_ID : Ty := .sequence true 1 (.required false PLMNIdentity (.required false TNGF_ID (.optional 0 GlobalTNGF_IDIE_Extensions .nil)))
/-- examples/tests/13-ngap.rs:9023-9032 -/
def GlobalRANNodeIDchoice_ExtensionsValue : Ty := .openType (.cons 240 false GlobalTNGF_ID (.cons 241 false GlobalTWIF_ID (.cons 242 false GlobalW_AGF_ID .nil)))
/-- examples/tests/13-ngap.rs:9034-9041 -/
def GlobalRANNodeIDchoice_Extensions : Ty := .sequence false 0 (.required true ProtocolIE_ID (.required false Criticality (.required false GlobalRANNodeIDchoice_ExtensionsValue .nil)))
/-- examples/tests/13-ngap.rs:8997-8999 -/
def GlobalN3IWF_IDIE_Extensions_Entry : Ty := .sequence false 0 .nil
/-- examples/tests/13-ngap.rs:9001-9008 -/
def GlobalN3IWF_IDIE_Extensions : Ty := .sequenceOf (some 1) (some 65535) false GlobalN3IWF_IDIE_Extensions_Entry
/-- examples/tests/13-ngap.rs:10524-10526 -/
def N3IWF_IDchoice_Extensions : Ty := .sequence false 0 .nil
/-- examples/tests/13-ngap.rs:10520-10522 -/
def BIT_STRING_31 : Ty := .bitstring (some 16) (some 16) false
/-- examples/tests/13-ngap.rs:2928-2935 -/
def N3IWF_ID : Ty := .choice 0 1 false (.cons 0 false BIT_STRING_31 (.cons 1 false N3IWF_IDchoice_Extensions .nil))
/-- examples/tests/13-ngap.rs:2005-2012 -/
def GlobalN3IWF_ID : Ty := .sequence true 1 (.required false PLMNIdentity (.required false N3IWF_ID (.optional 0 GlobalN3IWF_IDIE_Extensions .nil)))
/-- examples/tests/13-ngap.rs:9010-9012 -/
def GlobalNgENB_IDIE_Extensions_Entry : Ty := .sequence false 0 .nil
/-- examples/tests/13-ngap.rs:9014-9021 -/
def GlobalNgENB_IDIE_Extensions : Ty := .sequenceOf (some 1) (some 65535) false GlobalNgENB_IDIE_Extensions_Entry
/-- examples/tests/13-ngap.rs:10847-10849 -/
def NgENB_IDchoice_Extensions : Ty := .sequence false 0 .nil
/-- examples/tests/13-ngap.rs:10843-10845 -/
def BIT_STRING_34 : Ty := .bitstring (some 21) (some 21) false
/-- examples/tests/13-ngap.rs:10839-10841 -/
def BIT_STRING_33 : Ty := .bitstring (some 18) (some 18) false
/-- examples/tests/13-ngap.rs:10835-10837 -/
def BIT_STRING_32 : Ty := .bitstring (some 20) (some 20) false
/-- examples/tests/13-ngap.rs:3267-3278 -/
def NgENB_ID : Ty := .choice 0 3 false (.cons 0 false BIT_STRING_32 (.cons 1 false BIT_STRING_33 (.cons 2 false BIT_STRING_34 (.cons 3 false NgENB_IDchoice_Extensions .nil))))
/-- examples/tests/13-ngap.rs:2014-2021 -/
def GlobalNgENB_ID : Ty := .sequence true 1 (.required false PLMNIdentity (.required false NgENB_ID (.optional 0 GlobalNgENB_IDIE_Extensions .nil)))
/-- examples/tests/13-ngap.rs:8971-8973 -/
def GlobalGNB_IDIE_Extensions_Entry : Ty := .sequence false 0 .nil
/-- examples/tests/13-ngap.rs:8975-8982 -/
def GlobalGNB_IDIE_Extensions : Ty := .sequenceOf (some 1) (some 65535) false GlobalGNB_IDIE_Extensions_Entry
/-- examples/tests/13-ngap.rs:8928-8930 -/
def GNB_IDchoice_Extensions : Ty := .sequence false 0 .nil
/-- examples/tests/13-ngap.rs:8924-8926 -/
def BIT_STRING_26 : Ty := .bitstring (some 22) (some 32) false
/-- examples/tests/13-ngap.rs:1924-1931 -/
def GNB_ID : Ty := .choice 0 1 false (.cons 0 false BIT_STRING_26 (.cons 1 false GNB_IDchoice_Extensions .nil))
/-- examples/tests/13-ngap.rs:1982-1989 -/
def GlobalGNB_ID : Ty := .sequence true 1 (.required false PLMNIdentity (.required false GNB_ID (.optional 0 GlobalGNB_IDIE_Extensions .nil)))
/-- examples/tests/13-ngap.rs:2023-2034 -/
def GlobalRANNodeID : Ty := .choice 0 3 false (.cons 0 false GlobalGNB_ID (.cons 1 false GlobalNgENB_ID (.cons 2 false GlobalN3IWF_ID (.cons 3 false GlobalRANNodeIDchoice_Extensions .nil))))
/-- examples/tests/13-ngap.rs:111-120 -/
def AMFPagingTarget : Ty := .choice 0 2 false (.cons 0 false GlobalRANNodeID (.cons 1 false TAI (.cons 2 false AMFPagingTargetchoice_Extensions .nil)))
/-- examples/tests/13-ngap.rs:15487-15489 -/
def UnavailableGUAMIItemIE_Extensions_Entry : Ty := .sequence false 0 .nil
/-- examples/tests/13-ngap.rs:15491-15498 -/
def UnavailableGUAMIItemIE_Extensions : Ty := .sequenceOf (some 1) (some 65535) false UnavailableGUAMIItemIE_Extensions_Entry
/-- examples/tests/13-ngap.rs:6031-6033 -/
def TimerApproachForGUAMIRemoval : Ty := .enumerated .u8 (some 0) (some 0) true
/-- examples/tests/13-ngap.rs:6527-6537 -/
def UnavailableGUAMIItem : Ty := .sequence true 3 (.required false GUAMI (.optional 0 TimerApproachForGUAMIRemoval (.optional 1 AMFName (.optional 2 UnavailableGUAMIItemIE_Extensions .nil))))
/-- examples/tests/13-ngap.rs:6539-6546 -/
def UnavailableGUAMIList : Ty := .sequenceOf (some 1) (some 256) false UnavailableGUAMIItem
/-- examples/tests/13-ngap.rs:7072-7077 -/
def AMFStatusIndicationProtocolIEs_EntryValue : Ty := .openType (.cons 120 false UnavailableGUAMIList .nil)
/-- examples/tests/13-ngap.rs:7079-7086 -/
def AMFStatusIndicationProtocolIEs_Entry : Ty := .sequence false 0 (.required true ProtocolIE_ID (.required false Criticality (.required false AMFStatusIndicationProtocolIEs_EntryValue .nil)))
/-- examples/tests/13-ngap.rs:7088-7095 -/
def AMFStatusIndicationProtocolIEs : Ty := .sequenceOf (some 0) (some 65535) false AMFStatusIndicationProtocolIEs_Entry
/-- examples/tests/13-ngap.rs:134-138 -/
def AMFStatusIndication : Ty := .sequence true 0 (.required false AMFStatusIndicationProtocolIEs .nil)
/-- examples/tests/13-ngap.rs:15453-15455 -/
def UPTransportLayerInformationchoice_Extensions : Ty := .sequence false 0 .nil
/-- examples/tests/13-ngap.rs:8932-8934 -/
def GTPTunnelIE_Extensions_Entry : Ty := .sequence false 0 .nil
/-- examples/tests/13-ngap.rs:8936-8943 -/
def GTPTunnelIE_Extensions : Ty := .sequenceOf (some 1) (some 65535) false GTPTunnelIE_Extensions_Entry
/-- examples/tests/13-ngap.rs:1937-1939 -/
def GTP_TEID : Ty := .octetstring (some 4) (some 4) false
/-- examples/tests/13-ngap.rs:1941-1948 -/
def GTPTunnel : Ty := .sequence true 1 (.required false TransportLayerAddress (.required false GTP_TEID (.optional 0 GTPTunnelIE_Extensions .nil)))
/-- examples/tests/13-ngap.rs:6489-6496 -/
def UPTransportLayerInformation : Ty := .choice 0 1 false (.cons 0 false GTPTunnel (.cons 1 false UPTransportLayerInformationchoice_Extensions .nil))
/-- examples/tests/13-ngap.rs:7097-7102 -/
def AdditionalDLUPTNLInformationForHOItemIE_Extensions_EntryExtensionValue : Ty := .openType (.cons 183 false UPTransportLayerInformation .nil)
/-- examples/tests/13-ngap.rs:7104-7111 -/
def AdditionalDLUPTNLInformationForHOItemIE_Extensions_Entry : Ty := .sequence false 0 (.required true ProtocolExtensionID (.required false Criticality (.required false AdditionalDLUPTNLInformationForHOItemIE_Extensions_EntryExtensionValue .nil)))
/-- examples/tests/13-ngap.rs:7113-7122 -/
def AdditionalDLUPTNLInformationForHOItemIE_Extensions : Ty := .sequenceOf (some 1) (some 65535) false AdditionalDLUPTNLInformationForHOItemIE_Extensions_Entry
/-- examples/tests/13-ngap.rs:211-213 -/
def AlternativeQoSParaSetIndex : Ty := .integer .u8 (some 1) (some 8) true
/-- examples/tests/13-ngap.rs:13100-13105 -/
def QosFlowItemWithDataForwardingIE_Extensions_EntryExtensionValue : Ty := .openType (.cons 221 false AlternativeQoSParaSetIndex .nil)
/-- examples/tests/13-ngap.rs:13107-13114 -/
def QosFlowItemWithDataForwardingIE_Extensions_Entry : Ty := .sequence false 0 (.required true ProtocolExtensionID (.required false Criticality (.required false QosFlowItemWithDataForwardingIE_Extensions_EntryExtensionValue .nil)))
/-- examples/tests/13-ngap.rs:13116-13125 -/
def QosFlowItemWithDataForwardingIE_Extensions : Ty := .sequenceOf (some 1) (some 65535) false QosFlowItemWithDataForwardingIE_Extensions_Entry
/-- examples/tests/13-ngap.rs:1282-1284 -/
def DataForwardingAccepted : Ty := .enumerated .u8 (some 0) (some 0) true
/-- examples/tests/13-ngap.rs:4789-4791 -/
def QosFlowIdentifier : Ty := .integer .u8 (some 0) (some 63) true
/-- examples/tests/13-ngap.rs:4807-4815 -/
def QosFlowItemWithDataForwarding : Ty := .sequence true 2 (.required false QosFlowIdentifier (.optional 0 DataForwardingAccepted (.optional 1 QosFlowItemWithDataForwardingIE_Extensions .nil)))
/-- examples/tests/13-ngap.rs:4836-4838 -/
def QosFlowListWithDataForwarding : Ty := .sequenceOf (some 1) (some 64) false QosFlowItemWithDataForwarding
/-- examples/tests/13-ngap.rs:140-149 -/
def AdditionalDLUPTNLInformationForHOItem : Ty := .sequence true 2 (.required false UPTransportLayerInformation (.required false QosFlowListWithDataForwarding (.optional 0 UPTransportLayerInformation (.optional 1 AdditionalDLUPTNLInformationForHOItemIE_Extensions .nil))))
/-- examples/tests/13-ngap.rs:151-153 -/
def AdditionalDLUPTNLInformationForHOList : Ty := .sequenceOf (some 1) (some 3) false AdditionalDLUPTNLInformationForHOItem
/-- examples/tests/13-ngap.rs:155-157 -/
def AdditionalQosFlowInformation : Ty := .enumerated .u8 (some 0) (some 0) true
/-- examples/tests/13-ngap.rs:7124-7126 -/
def AllocationAndRetentionPriorityIE_Extensions_Entry : Ty := .sequence false 0 .nil
/-- examples/tests/13-ngap.rs:7128-7137 -/
def AllocationAndRetentionPriorityIE_Extensions : Ty := .sequenceOf (some 1) (some 65535) false AllocationAndRetentionPriorityIE_Extensions_Entry
/-- examples/tests/13-ngap.rs:4637-4639 -/
def Pre_emptionVulnerability : Ty := .enumerated .u8 (some 0) (some 1) true
/-- examples/tests/13-ngap.rs:4629-4631 -/
def Pre_emptionCapability : Ty := .enumerated .u8 (some 0) (some 1) true
/-- examples/tests/13-ngap.rs:4654-4656 -/
def PriorityLevelARP : Ty := .integer .u8 (some 1) (some 15) false
/-- examples/tests/13-ngap.rs:162-170 -/
def AllocationAndRetentionPriority : Ty := .sequence true 1 (.required false PriorityLevelARP (.required false Pre_emptionCapability (.required false Pre_emptionVulnerability (.optional 0 AllocationAndRetentionPriorityIE_Extensions .nil))))
/-- examples/tests/13-ngap.rs:493-495 -/
def CAG_ID : Ty := .bitstring (some 32) (some 32) false
/-- examples/tests/13-ngap.rs:172-179 -/
def Allowed_CAG_List_per_PLMN : Ty := .sequenceOf (some 1) (some 256) false CAG_ID
/-- examples/tests/13-ngap.rs:7147-7149 -/
def Allowed_PNI_NPN_ItemIE_Extensions_Entry : Ty := .sequence false 0 .nil
/-- examples/tests/13-ngap.rs:7151-7158 -/
def Allowed_PNI_NPN_ItemIE_Extensions : Ty := .sequenceOf (some 1) (some 65535) false Allowed_PNI_NPN_ItemIE_Extensions_Entry
/-- examples/tests/13-ngap.rs:7139-7141 -/
def ENUMERATED_2 : Ty := .enumerated .u8 (some 0) (some 1) true
/-- examples/tests/13-ngap.rs:181-189 -/
def Allowed_PNI_NPN_Item : Ty := .sequence true 1 (.required false PLMNIdentity (.required false ENUMERATED_2 (.required false Allowed_CAG_List_per_PLMN (.optional 0 Allowed_PNI_NPN_ItemIE_Extensions .nil))))
/-- examples/tests/13-ngap.rs:191-193 -/
def Allowed_PNI_NPN_List : Ty := .sequenceOf (some 1) (some 16) false Allowed_PNI_NPN_Item
/-- examples/tests/13-ngap.rs:207-209 -/
def AllowedTACs : Ty := .sequenceOf (some 1) (some 16) false TAC
/-- examples/tests/13-ngap.rs:7173-7175 -/
def AlternativeQoSParaSetItemIE_Extensions_Entry : Ty := .sequence false 0 .nil
/-- examples/tests/13-ngap.rs:7177-7186 -/
def AlternativeQoSParaSetItemIE_Extensions : Ty := .sequenceOf (some 1) (some 65535) false AlternativeQoSParaSetItemIE_Extensions_Entry
/-- examples/tests/13-ngap.rs:12581-12583 -/
def PacketErrorRateIE_Extensions_Entry : Ty := .sequence false 0 .nil
/-- examples/tests/13-ngap.rs:12585-12592 -/
def PacketErrorRateIE_Extensions : Ty := .sequenceOf (some 1) (some 65535) false PacketErrorRateIE_Extensions_Entry
/-- examples/tests/13-ngap.rs:12577-12579 -/
def INTEGER_69 : Ty := .integer .u8 (some 0) (some 9) true
/-- examples/tests/13-ngap.rs:12573-12575 -/
def INTEGER_68 : Ty := .integer .u8 (some 0) (some 9) true
/-- examples/tests/13-ngap.rs:4398-4405 -/
def PacketErrorRate : Ty := .sequence true 1 (.required false INTEGER_68 (.required false INTEGER_69 (.optional 0 PacketErrorRateIE_Extensions .nil)))
/-- examples/tests/13-ngap.rs:4394-4396 -/
def PacketDelayBudget : Ty := .integer .u16 (some 0) (some 1023) true
/-- examples/tests/13-ngap.rs:394-396 -/
def BitRate : Ty := .integer .u64 (some 0) (some 4000000000000) true
/-- examples/tests/13-ngap.rs:215-229 -/
def AlternativeQoSParaSetItem : Ty := .sequence true 5 (.required false AlternativeQoSParaSetIndex (.optional 0 BitRate (.optional 1 BitRate (.optional 2 PacketDelayBudget (.optional 3 PacketErrorRate (.optional 4 AlternativeQoSParaSetItemIE_Extensions .nil))))))
/-- examples/tests/13-ngap.rs:231-233 -/
def AlternativeQoSParaSetList : Ty := .sequenceOf (some 1) (some 8) false AlternativeQoSParaSetItem
/-- examples/tests/13-ngap.rs:235-237 -/
def AlternativeQoSParaSetNotifyIndex : Ty := .integer .u8 (some 0) (some 8) true
/-- examples/tests/13-ngap.rs:7188-7190 -/
def AreaOfInterestIE_Extensions_Entry : Ty := .sequence false 0 .nil
/-- examples/tests/13-ngap.rs:7192-7199 -/
def AreaOfInterestIE_Extensions : Ty := .sequenceOf (some 1) (some 65535) false AreaOfInterestIE_Extensions_Entry
/-- examples/tests/13-ngap.rs:7227-7229 -/
def AreaOfInterestRANNodeItemIE_Extensions_Entry : Ty := .sequence false 0 .nil
/-- examples/tests/13-ngap.rs:7231-7240 -/
def AreaOfInterestRANNodeItemIE_Extensions : Ty := .sequenceOf (some 1) (some 65535) false AreaOfInterestRANNodeItemIE_Extensions_Entry
/-- examples/tests/13-ngap.rs:282-288 -/
def AreaOfInterestRANNodeItem : Ty := .sequence true 1 (.required false GlobalRANNodeID (.optional 0 AreaOfInterestRANNodeItemIE_Extensions .nil))
/-- examples/tests/13-ngap.rs:290-292 -/
def AreaOfInterestRANNodeList : Ty := .sequenceOf (some 1) (some 64) false AreaOfInterestRANNodeItem
/-- examples/tests/13-ngap.rs:7201-7203 -/
def AreaOfInterestCellItemIE_Extensions_Entry : Ty := .sequence false 0 .nil
/-- examples/tests/13-ngap.rs:7205-7212 -/
def AreaOfInterestCellItemIE_Extensions : Ty := .sequenceOf (some 1) (some 65535) false AreaOfInterestCellItemIE_Extensions_Entry
/-- examples/tests/13-ngap.rs:10572-10574 -/
def NGRAN_CGIchoice_Extensions : Ty := .sequence false 0 .nil
/-- examples/tests/13-ngap.rs:8548-8550 -/
def EUTRA_CGIIE_Extensions_Entry : Ty := .sequence false 0 .nil
/-- examples/tests/13-ngap.rs:8552-8559 -/
def EUTRA_CGIIE_Extensions : Ty := .sequenceOf (some 1) (some 65535) false EUTRA_CGIIE_Extensions_Entry
/-- examples/tests/13-ngap.rs:1500-1502 -/
def EUTRACellIdentity : Ty := .bitstring (some 28) (some 28) false
/-- examples/tests/13-ngap.rs:1473-1480 -/
def EUTRA_CGI : Ty := .sequence true 1 (.required false PLMNIdentity (.required false EUTRACellIdentity (.optional 0 EUTRA_CGIIE_Extensions .nil)))
/-- examples/tests/13-ngap.rs:10766-10768 -/
def NR_CGIIE_Extensions_Entry : Ty := .sequence false 0 .nil
/-- examples/tests/13-ngap.rs:10770-10777 -/
def NR_CGIIE_Extensions : Ty := .sequenceOf (some 1) (some 65535) false NR_CGIIE_Extensions_Entry
/-- examples/tests/13-ngap.rs:3176-3178 -/
def NRCellIdentity : Ty := .bitstring (some 36) (some 36) false
/-- examples/tests/13-ngap.rs:3141-3148 -/
def NR_CGI : Ty := .sequence true 1 (.required false PLMNIdentity (.required false NRCellIdentity (.optional 0 NR_CGIIE_Extensions .nil)))
/-- examples/tests/13-ngap.rs:3040-3049 -/
def NGRAN_CGI : Ty := .choice 0 2 false (.cons 0 false NR_CGI (.cons 1 false EUTRA_CGI (.cons 2 false NGRAN_CGIchoice_Extensions .nil)))
/-- examples/tests/13-ngap.rs:252-258 -/
def AreaOfInterestCellItem : Ty := .sequence true 1 (.required false NGRAN_CGI (.optional 0 AreaOfInterestCellItemIE_Extensions .nil))
/-- examples/tests/13-ngap.rs:260-267 -/
def AreaOfInterestCellList : Ty := .sequenceOf (some 1) (some 256) false AreaOfInterestCellItem
/-- examples/tests/13-ngap.rs:7242-7244 -/
def AreaOfInterestTAIItemIE_Extensions_Entry : Ty := .sequence false 0 .nil
/-- examples/tests/13-ngap.rs:7246-7253 -/
def AreaOfInterestTAIItemIE_Extensions : Ty := .sequenceOf (some 1) (some 65535) false AreaOfInterestTAIItemIE_Extensions_Entry
/-- examples/tests/13-ngap.rs:294-300 -/
def AreaOfInterestTAIItem : Ty := .sequence true 1 (.required false TAI (.optional 0 AreaOfInterestTAIItemIE_Extensions .nil))
/-- examples/tests/13-ngap.rs:302-304 -/
def AreaOfInterestTAIList : Ty := .sequenceOf (some 1) (some 16) false AreaOfInterestTAIItem
/-- examples/tests/13-ngap.rs:239-250 -/
def AreaOfInterest : Ty := .sequence true 4 (.optional 0 AreaOfInterestTAIList (.optional 1 AreaOfInterestCellList (.optional 2 AreaOfInterestRANNodeList (.optional 3 AreaOfInterestIE_Extensions .nil))))
/-- examples/tests/13-ngap.rs:7214-7216 -/
def AreaOfInterestItemIE_Extensions_Entry : Ty := .sequence false 0 .nil
/-- examples/tests/13-ngap.rs:7218-7225 -/
def AreaOfInterestItemIE_Extensions : Ty := .sequenceOf (some 1) (some 65535) false AreaOfInterestItemIE_Extensions_Entry
/-- examples/tests/13-ngap.rs:2583-2585 -/
def LocationReportingReferenceID : Ty := .integer .u8 (some 1) (some 64) true
/-- examples/tests/13-ngap.rs:269-276 -/
def AreaOfInterestItem : Ty := .sequence true 1 (.required false AreaOfInterest (.required false LocationReportingReferenceID (.optional 0 AreaOfInterestItemIE_Extensions .nil)))
/-- examples/tests/13-ngap.rs:278-280 -/
def AreaOfInterestList : Ty := .sequenceOf (some 1) (some 64) false AreaOfInterestItem
/-- examples/tests/13-ngap.rs:7259-7261 -/
def AreaScopeOfMDT_EUTRAchoice_Extensions : Ty := .sequence false 0 .nil
/-- examples/tests/13-ngap.rs:14184-14186 -/
def TAIBasedMDTIE_Extensions_Entry : Ty := .sequence false 0 .nil
/-- examples/tests/13-ngap.rs:14188-14195 -/
def TAIBasedMDTIE_Extensions : Ty := .sequenceOf (some 1) (some 65535) false TAIBasedMDTIE_Extensions_Entry
/-- examples/tests/13-ngap.rs:5827-5829 -/
def TAIListforMDT : Ty := .sequenceOf (some 1) (some 8) false TAI
/-- examples/tests/13-ngap.rs:5705-5711 -/
def TAIBasedMDT : Ty := .sequence true 1 (.required false TAIListforMDT (.optional 0 TAIBasedMDTIE_Extensions .nil))
/-- examples/tests/13-ngap.rs:7255-7257 -/
def NULL_3 : Ty := .null
/-- examples/tests/13-ngap.rs:14158-14160 -/
def TABasedMDTIE_Extensions_Entry : Ty := .sequence false 0 .nil
/-- examples/tests/13-ngap.rs:14162-14169 -/
def TABasedMDTIE_Extensions : Ty := .sequenceOf (some 1) (some 65535) false TABasedMDTIE_Extensions_Entry
/-- examples/tests/13-ngap.rs:5831-5833 -/
def TAListforMDT : Ty := .sequenceOf (some 1) (some 8) false TAC
/-- examples/tests/13-ngap.rs:5684-5690 -/
def TABasedMDT : Ty := .sequence true 1 (.required false TAListforMDT (.optional 0 TABasedMDTIE_Extensions .nil))
/-- examples/tests/13-ngap.rs:7657-7659 -/
def CellBasedMDT_EUTRAIE_Extensions_Entry : Ty := .sequence false 0 .nil
/-- examples/tests/13-ngap.rs:7661-7668 -/
def CellBasedMDT_EUTRAIE_Extensions : Ty := .sequenceOf (some 1) (some 65535) false CellBasedMDT_EUTRAIE_Extensions_Entry
/-- examples/tests/13-ngap.rs:908-910 -/
def CellIdListforMDT_EUTRA : Ty := .sequenceOf (some 1) (some 32) false EUTRA_CGI
/-- examples/tests/13-ngap.rs:807-813 -/
def CellBasedMDT_EUTRA : Ty := .sequence true 1 (.required false CellIdListforMDT_EUTRA (.optional 0 CellBasedMDT_EUTRAIE_Extensions .nil))
/-- examples/tests/13-ngap.rs:306-319 -/
def AreaScopeOfMDT_EUTRA : Ty := .choice 0 4 false (.cons 0 false CellBasedMDT_EUTRA (.cons 1 false TABasedMDT (.cons 2 false NULL_3 (.cons 3 false TAIBasedMDT (.cons 4 false AreaScopeOfMDT_EUTRAchoice_Extensions .nil)))))
/-- examples/tests/13-ngap.rs:7267-7269 -/
def AreaScopeOfMDT_NRchoice_Extensions : Ty := .sequence false 0 .nil
/-- examples/tests/13-ngap.rs:7263-7265 -/
def NULL_4 : Ty := .null
/-- examples/tests/13-ngap.rs:7670-7672 -/
def CellBasedMDT_NRIE_Extensions_Entry : Ty := .sequence false 0 .nil
/-- examples/tests/13-ngap.rs:7674-7681 -/
def CellBasedMDT_NRIE_Extensions : Ty := .sequenceOf (some 1) (some 65535) false CellBasedMDT_NRIE_Extensions_Entry
/-- examples/tests/13-ngap.rs:912-914 -/
def CellIdListforMDT_NR : Ty := .sequenceOf (some 1) (some 32) false NR_CGI
/-- examples/tests/13-ngap.rs:815-821 -/
def CellBasedMDT_NR : Ty := .sequence true 1 (.required false CellIdListforMDT_NR (.optional 0 CellBasedMDT_NRIE_Extensions .nil))
/-- examples/tests/13-ngap.rs:321-334 -/
def AreaScopeOfMDT_NR : Ty := .choice 0 4 false (.cons 0 false CellBasedMDT_NR (.cons 1 false TABasedMDT (.cons 2 false NULL_4 (.cons 3 false TAIBasedMDT (.cons 4 false AreaScopeOfMDT_NRchoice_Extensions .nil)))))
/-- examples/tests/13-ngap.rs:7271-7273 -/
def AreaScopeOfNeighCellsItemIE_Extensions_Entry : Ty := .sequence false 0 .nil
/-- examples/tests/13-ngap.rs:7275-7284 -/
def AreaScopeOfNeighCellsItemIE_Extensions : Ty := .sequenceOf (some 1) (some 65535) false AreaScopeOfNeighCellsItemIE_Extensions_Entry
/-- examples/tests/13-ngap.rs:3168-3170 -/
def NR_PCI : Ty := .integer .u16 (some 0) (some 1007) true
/-- examples/tests/13-ngap.rs:3420-3422 -/
def PCIListForMDT : Ty := .sequenceOf (some 1) (some 32) false NR_PCI
/-- examples/tests/13-ngap.rs:10792-10794 -/
def NRFrequencyInfoIE_Extension_Entry : Ty := .sequence false 0 .nil
/-- examples/tests/13-ngap.rs:10796-10803 -/
def NRFrequencyInfoIE_Extension : Ty := .sequenceOf (some 1) (some 65535) false NRFrequencyInfoIE_Extension_Entry
/-- examples/tests/13-ngap.rs:10779-10781 -/
def NRFrequencyBandItemIE_Extension_Entry : Ty := .sequence false 0 .nil
/-- examples/tests/13-ngap.rs:10783-10790 -/
def NRFrequencyBandItemIE_Extension : Ty := .sequenceOf (some 1) (some 65535) false NRFrequencyBandItemIE_Extension_Entry
/-- examples/tests/13-ngap.rs:3180-3182 -/
def NRFrequencyBand : Ty := .integer .u16 (some 1) (some 1024) true
/-- examples/tests/13-ngap.rs:3188-3194 -/
def NRFrequencyBandItem : Ty := .sequence true 1 (.required false NRFrequencyBand (.optional 0 NRFrequencyBandItemIE_Extension .nil))
/-- examples/tests/13-ngap.rs:3184-3186 -/
def NRFrequencyBand_List : Ty := .sequenceOf (some 1) (some 32) false NRFrequencyBandItem
/-- examples/tests/13-ngap.rs:3172-3174 -/
def NRARFCN : Ty := .integer .u32 (some 0) (some 3279165) false
/-- examples/tests/13-ngap.rs:3196-3203 -/
def NRFrequencyInfo : Ty := .sequence true 1 (.required false NRARFCN (.required false NRFrequencyBand_List (.optional 0 NRFrequencyInfoIE_Extension .nil)))
/-- examples/tests/13-ngap.rs:336-344 -/
def AreaScopeOfNeighCellsItem : Ty := .sequence true 2 (.required false NRFrequencyInfo (.optional 0 PCIListForMDT (.optional 1 AreaScopeOfNeighCellsItemIE_Extensions .nil)))
/-- examples/tests/13-ngap.rs:346-348 -/
def AreaScopeOfNeighCellsList : Ty := .sequenceOf (some 1) (some 8) false AreaScopeOfNeighCellsItem
/-- examples/tests/13-ngap.rs:12643-12645 -/
def PagingAssisDataforCEcapabUEIE_Extensions_Entry : Ty := .sequence false 0 .nil
/-- examples/tests/13-ngap.rs:12647-12656 -/
def PagingAssisDataforCEcapabUEIE_Extensions : Ty := .sequenceOf (some 1) (some 65535) false PagingAssisDataforCEcapabUEIE_Extensions_Entry
/-- examples/tests/13-ngap.rs:1074-1076 -/
def CoverageEnhancementLevel : Ty := .octetstring none none false
/-- examples/tests/13-ngap.rs:4459-4466 -/
def PagingAssisDataforCEcapabUE : Ty := .sequence true 1 (.required false EUTRA_CGI (.required false CoverageEnhancementLevel (.optional 0 PagingAssisDataforCEcapabUEIE_Extensions .nil)))
/-- examples/tests/13-ngap.rs:10758-10760 -/
def NPN_PagingAssistanceInformationchoice_Extensions : Ty := .sequence false 0 .nil
/-- examples/tests/13-ngap.rs:3123-3130 -/
def NPN_PagingAssistanceInformation : Ty := .choice 0 1 false (.cons 0 false Allowed_PNI_NPN_List (.cons 1 false NPN_PagingAssistanceInformationchoice_Extensions .nil))
/-- examples/tests/13-ngap.rs:7286-7293 -/
def AssistanceDataForPagingIE_Extensions_EntryExtensionValue : Ty := .openType (.cons 260 false NPN_PagingAssistanceInformation (.cons 207 false PagingAssisDataforCEcapabUE .nil))
/-- examples/tests/13-ngap.rs:7295-7302 -/
def AssistanceDataForPagingIE_Extensions_Entry : Ty := .sequence false 0 (.required true ProtocolExtensionID (.required false Criticality (.required false AssistanceDataForPagingIE_Extensions_EntryExtensionValue .nil)))
/-- examples/tests/13-ngap.rs:7304-7313 -/
def AssistanceDataForPagingIE_Extensions : Ty := .sequenceOf (some 1) (some 65535) false AssistanceDataForPagingIE_Extensions_Entry
/-- examples/tests/13-ngap.rs:12658-12660 -/
def PagingAttemptInformationIE_Extensions_Entry : Ty := .sequence false 0 .nil
/-- examples/tests/13-ngap.rs:12662-12671 -/
def PagingAttemptInformationIE_Extensions : Ty := .sequenceOf (some 1) (some 65535) false PagingAttemptInformationIE_Extensions_Entry
/-- examples/tests/13-ngap.rs:3259-3261 -/
def NextPagingAreaScope : Ty := .enumerated .u8 (some 0) (some 1) true
/-- examples/tests/13-ngap.rs:2344-2346 -/
def IntendedNumberOfPagingAttempts : Ty := .integer .u8 (some 1) (some 16) true
/-- examples/tests/13-ngap.rs:4468-4470 -/
def PagingAttemptCount : Ty := .integer .u8 (some 1) (some 16) true
/-- examples/tests/13-ngap.rs:4472-4481 -/
def PagingAttemptInformation : Ty := .sequence true 2 (.required false PagingAttemptCount (.required false IntendedNumberOfPagingAttempts (.optional 0 NextPagingAreaScope (.optional 1 PagingAttemptInformationIE_Extensions .nil))))
/-- examples/tests/13-ngap.rs:7315-7317 -/
def AssistanceDataForRecommendedCellsIE_Extensions_Entry : Ty := .sequence false 0 .nil
/-- examples/tests/13-ngap.rs:7319-7328 -/
def AssistanceDataForRecommendedCellsIE_Extensions : Ty := .sequenceOf (some 1) (some 65535) false AssistanceDataForRecommendedCellsIE_Extensions_Entry
/-- examples/tests/13-ngap.rs:13566-13568 -/
def RecommendedCellsForPagingIE_Extensions_Entry : Ty := .sequence false 0 .nil
/-- examples/tests/13-ngap.rs:13570-13579 -/
def RecommendedCellsForPagingIE_Extensions : Ty := .sequenceOf (some 1) (some 65535) false RecommendedCellsForPagingIE_Extensions_Entry
/-- examples/tests/13-ngap.rs:13553-13555 -/
def RecommendedCellItemIE_Extensions_Entry : Ty := .sequence false 0 .nil
/-- examples/tests/13-ngap.rs:13557-13564 -/
def RecommendedCellItemIE_Extensions : Ty := .sequenceOf (some 1) (some 65535) false RecommendedCellItemIE_Extensions_Entry
/-- examples/tests/13-ngap.rs:13549-13551 -/
def INTEGER_74 : Ty := .integer .u16 (some 0) (some 4095) false
/-- examples/tests/13-ngap.rs:5129-5137 -/
def RecommendedCellItem : Ty := .sequence true 2 (.required false NGRAN_CGI (.optional 0 INTEGER_74 (.optional 1 RecommendedCellItemIE_Extensions .nil)))
/-- examples/tests/13-ngap.rs:5139-5141 -/
def RecommendedCellList : Ty := .sequenceOf (some 1) (some 16) false RecommendedCellItem
/-- examples/tests/13-ngap.rs:5143-5149 -/
def RecommendedCellsForPaging : Ty := .sequence true 1 (.required false RecommendedCellList (.optional 0 RecommendedCellsForPagingIE_Extensions .nil))
/-- examples/tests/13-ngap.rs:361-367 -/
def AssistanceDataForRecommendedCells : Ty := .sequence true 1 (.required false RecommendedCellsForPaging (.optional 0 AssistanceDataForRecommendedCellsIE_Extensions .nil))
/-- examples/tests/13-ngap.rs:350-359 -/
def AssistanceDataForPaging : Ty := .sequence true 3 (.optional 0 AssistanceDataForRecommendedCells (.optional 1 PagingAttemptInformation (.optional 2 AssistanceDataForPagingIE_Extensions .nil)))
/-- examples/tests/13-ngap.rs:7338-7343 -/
def AssociatedQosFlowItemIE_Extensions_EntryExtensionValue : Ty := .openType (.cons 221 false AlternativeQoSParaSetIndex .nil)
/-- examples/tests/13-ngap.rs:7345-7352 -/
def AssociatedQosFlowItemIE_Extensions_Entry : Ty := .sequence false 0 (.required true ProtocolExtensionID (.required false Criticality (.required false AssociatedQosFlowItemIE_Extensions_EntryExtensionValue .nil)))
/-- examples/tests/13-ngap.rs:7354-7361 -/
def AssociatedQosFlowItemIE_Extensions : Ty := .sequenceOf (some 1) (some 65535) false AssociatedQosFlowItemIE_Extensions_Entry
/-- examples/tests/13-ngap.rs:7330-7332 -/
def ENUMERATED_5 : Ty := .enumerated .u8 (some 0) (some 1) true
/-- examples/tests/13-ngap.rs:369-377 -/
def AssociatedQosFlowItem : Ty := .sequence true 2 (.required false QosFlowIdentifier (.optional 0 ENUMERATED_5 (.optional 1 AssociatedQosFlowItemIE_Extensions .nil)))
/-- examples/tests/13-ngap.rs:379-381 -/
def AssociatedQosFlowList : Ty := .sequenceOf (some 1) (some 64) false AssociatedQosFlowItem
/-- examples/tests/13-ngap.rs:383-385 -/
def AuthenticatedIndication : Ty := .enumerated .u8 (some 0) (some 0) true
/-- examples/tests/13-ngap.rs:390-392 -/
def AveragingWindow : Ty := .integer .u16 (some 0) (some 4095) true
/-- examples/tests/13-ngap.rs:398-400 -/
def BluetoothMeasConfig : Ty := .enumerated .u8 (some 0) (some 0) true
/-- examples/tests/13-ngap.rs:7363-7365 -/
def BluetoothMeasConfigNameItemIE_Extensions_Entry : Ty := .sequence false 0 .nil
/-- examples/tests/13-ngap.rs:7367-7376 -/
def BluetoothMeasConfigNameItemIE_Extensions : Ty := .sequenceOf (some 1) (some 65535) false BluetoothMeasConfigNameItemIE_Extensions_Entry
/-- examples/tests/13-ngap.rs:429-436 -/
def BluetoothName : Ty := .octetstring (some 1) (some 248) false
/-- examples/tests/13-ngap.rs:405-411 -/
def BluetoothMeasConfigNameItem : Ty := .sequence true 1 (.required false BluetoothName (.optional 0 BluetoothMeasConfigNameItemIE_Extensions .nil))
/-- examples/tests/13-ngap.rs:413-415 -/
def BluetoothMeasConfigNameList : Ty := .sequenceOf (some 1) (some 4) false BluetoothMeasConfigNameItem
/-- examples/tests/13-ngap.rs:7385-7387 -/
def BluetoothMeasurementConfigurationIE_Extensions_Entry : Ty := .sequence false 0 .nil
/-- examples/tests/13-ngap.rs:7389-7398 -/
def BluetoothMeasurementConfigurationIE_Extensions : Ty := .sequenceOf (some 1) (some 65535) false BluetoothMeasurementConfigurationIE_Extensions_Entry
/-- examples/tests/13-ngap.rs:7378-7380 -/
def ENUMERATED_6 : Ty := .enumerated .u8 (some 0) (some 0) true
/-- examples/tests/13-ngap.rs:417-427 -/
def BluetoothMeasurementConfiguration : Ty := .sequence true 3 (.required false BluetoothMeasConfig (.optional 0 BluetoothMeasConfigNameList (.optional 1 ENUMERATED_6 (.optional 2 BluetoothMeasurementConfigurationIE_Extensions .nil))))
/-- examples/tests/13-ngap.rs:7400-7402 -/
def BroadcastCancelledAreaListchoice_Extensions : Ty := .sequence false 0 .nil
/-- examples/tests/13-ngap.rs:8621-8623 -/
def EmergencyAreaIDCancelledNR_ItemIE_Extensions_Entry : Ty := .sequence false 0 .nil
/-- examples/tests/13-ngap.rs:8625-8634 -/
def EmergencyAreaIDCancelledNR_ItemIE_Extensions : Ty := .sequenceOf (some 1) (some 65535) false EmergencyAreaIDCancelledNR_ItemIE_Extensions_Entry
/-- examples/tests/13-ngap.rs:7544-7546 -/
def CancelledCellsInEAI_NR_ItemIE_Extensions_Entry : Ty := .sequence false 0 .nil
/-- examples/tests/13-ngap.rs:7548-7557 -/
def CancelledCellsInEAI_NR_ItemIE_Extensions : Ty := .sequenceOf (some 1) (some 65535) false CancelledCellsInEAI_NR_ItemIE_Extensions_Entry
/-- examples/tests/13-ngap.rs:3320-3322 -/
def NumberOfBroadcasts : Ty := .integer .u16 (some 0) (some 65535) false
/-- examples/tests/13-ngap.rs:602-609 -/
def CancelledCellsInEAI_NR_Item : Ty := .sequence true 1 (.required false NR_CGI (.required false NumberOfBroadcasts (.optional 0 CancelledCellsInEAI_NR_ItemIE_Extensions .nil)))
/-- examples/tests/13-ngap.rs:593-600 -/
def CancelledCellsInEAI_NR : Ty := .sequenceOf (some 1) (some 65535) false CancelledCellsInEAI_NR_Item
/-- examples/tests/13-ngap.rs:1520-1522 -/
def EmergencyAreaID : Ty := .octetstring (some 3) (some 3) false
/-- examples/tests/13-ngap.rs:1587-1594 -/
def EmergencyAreaIDCancelledNR_Item : Ty := .sequence true 1 (.required false EmergencyAreaID (.required false CancelledCellsInEAI_NR (.optional 0 EmergencyAreaIDCancelledNR_ItemIE_Extensions .nil)))
/-- examples/tests/13-ngap.rs:1578-1585 -/
def EmergencyAreaIDCancelledNR : Ty := .sequenceOf (some 1) (some 65535) false EmergencyAreaIDCancelledNR_Item
/-- examples/tests/13-ngap.rs:14236-14238 -/
def TAICancelledNR_ItemIE_Extensions_Entry : Ty := .sequence false 0 .nil
/-- examples/tests/13-ngap.rs:14240-14247 -/
def TAICancelledNR_ItemIE_Extensions : Ty := .sequenceOf (some 1) (some 65535) false TAICancelledNR_ItemIE_Extensions_Entry
/-- examples/tests/13-ngap.rs:7574-7576 -/
def CancelledCellsInTAI_NR_ItemIE_Extensions_Entry : Ty := .sequence false 0 .nil
/-- examples/tests/13-ngap.rs:7578-7587 -/
def CancelledCellsInTAI_NR_ItemIE_Extensions : Ty := .sequenceOf (some 1) (some 65535) false CancelledCellsInTAI_NR_ItemIE_Extensions_Entry
/-- examples/tests/13-ngap.rs:638-645 -/
def CancelledCellsInTAI_NR_Item : Ty := .sequence true 1 (.required false NR_CGI (.required false NumberOfBroadcasts (.optional 0 CancelledCellsInTAI_NR_ItemIE_Extensions .nil)))
/-- examples/tests/13-ngap.rs:629-636 -/
def CancelledCellsInTAI_NR : Ty := .sequenceOf (some 1) (some 65535) false CancelledCellsInTAI_NR_Item
/-- examples/tests/13-ngap.rs:5776-5783 -/
def TAICancelledNR_Item : Ty := .sequence true 1 (.required false TAI (.required false CancelledCellsInTAI_NR (.optional 0 TAICancelledNR_ItemIE_Extensions .nil)))
/-- examples/tests/13-ngap.rs:5767-5774 -/
def TAICancelledNR : Ty := .sequenceOf (some 1) (some 65535) false TAICancelledNR_Item
/-- examples/tests/13-ngap.rs:7726-7728 -/
def CellIDCancelledNR_ItemIE_Extensions_Entry : Ty := .sequence false 0 .nil
/-- examples/tests/13-ngap.rs:7730-7737 -/
def CellIDCancelledNR_ItemIE_Extensions : Ty := .sequenceOf (some 1) (some 65535) false CellIDCancelledNR_ItemIE_Extensions_Entry
/-- examples/tests/13-ngap.rs:888-895 -/
def CellIDCancelledNR_Item : Ty := .sequence true 1 (.required false NR_CGI (.required false NumberOfBroadcasts (.optional 0 CellIDCancelledNR_ItemIE_Extensions .nil)))
/-- examples/tests/13-ngap.rs:879-886 -/
def CellIDCancelledNR : Ty := .sequenceOf (some 1) (some 65535) false CellIDCancelledNR_Item
/-- examples/tests/13-ngap.rs:8606-8608 -/
def EmergencyAreaIDCancelledEUTRA_ItemIE_Extensions_Entry : Ty := .sequence false 0 .nil
/-- examples/tests/13-ngap.rs:8610-8619 -/
def EmergencyAreaIDCancelledEUTRA_ItemIE_Extensions : Ty := .sequenceOf (some 1) (some 65535) false EmergencyAreaIDCancelledEUTRA_ItemIE_Extensions_Entry
/-- examples/tests/13-ngap.rs:7529-7531 -/
def CancelledCellsInEAI_EUTRA_ItemIE_Extensions_Entry : Ty := .sequence false 0 .nil
/-- examples/tests/13-ngap.rs:7533-7542 -/
def CancelledCellsInEAI_EUTRA_ItemIE_Extensions : Ty := .sequenceOf (some 1) (some 65535) false CancelledCellsInEAI_EUTRA_ItemIE_Extensions_Entry
/-- examples/tests/13-ngap.rs:584-591 -/
def CancelledCellsInEAI_EUTRA_Item : Ty := .sequence true 1 (.required false EUTRA_CGI (.required false NumberOfBroadcasts (.optional 0 CancelledCellsInEAI_EUTRA_ItemIE_Extensions .nil)))
/-- examples/tests/13-ngap.rs:575-582 -/
def CancelledCellsInEAI_EUTRA : Ty := .sequenceOf (some 1) (some 65535) false CancelledCellsInEAI_EUTRA_Item
/-- examples/tests/13-ngap.rs:1569-1576 -/
def EmergencyAreaIDCancelledEUTRA_Item : Ty := .sequence true 1 (.required false EmergencyAreaID (.required false CancelledCellsInEAI_EUTRA (.optional 0 EmergencyAreaIDCancelledEUTRA_ItemIE_Extensions .nil)))
/-- examples/tests/13-ngap.rs:1560-1567 -/
def EmergencyAreaIDCancelledEUTRA : Ty := .sequenceOf (some 1) (some 65535) false EmergencyAreaIDCancelledEUTRA_Item
/-- examples/tests/13-ngap.rs:14223-14225 -/
def TAICancelledEUTRA_ItemIE_Extensions_Entry : Ty := .sequence false 0 .nil
/-- examples/tests/13-ngap.rs:14227-14234 -/
def TAICancelledEUTRA_ItemIE_Extensions : Ty := .sequenceOf (some 1) (some 65535) false TAICancelledEUTRA_ItemIE_Extensions_Entry
/-- examples/tests/13-ngap.rs:7559-7561 -/
def CancelledCellsInTAI_EUTRA_ItemIE_Extensions_Entry : Ty := .sequence false 0 .nil
/-- examples/tests/13-ngap.rs:7563-7572 -/
def CancelledCellsInTAI_EUTRA_ItemIE_Extensions : Ty := .sequenceOf (some 1) (some 65535) false CancelledCellsInTAI_EUTRA_ItemIE_Extensions_Entry
/-- examples/tests/13-ngap.rs:620-627 -/
def CancelledCellsInTAI_EUTRA_Item : Ty := .sequence true 1 (.required false EUTRA_CGI (.required false NumberOfBroadcasts (.optional 0 CancelledCellsInTAI_EUTRA_ItemIE_Extensions .nil)))
/-- examples/tests/13-ngap.rs:611-618 -/
def CancelledCellsInTAI_EUTRA : Ty := .sequenceOf (some 1) (some 65535) false CancelledCellsInTAI_EUTRA_Item
/-- examples/tests/13-ngap.rs:5758-5765 -/
def TAICancelledEUTRA_Item : Ty := .sequence true 1 (.required false TAI (.required false CancelledCellsInTAI_EUTRA (.optional 0 TAICancelledEUTRA_ItemIE_Extensions .nil)))
/-- examples/tests/13-ngap.rs:5749-5756 -/
def TAICancelledEUTRA : Ty := .sequenceOf (some 1) (some 65535) false TAICancelledEUTRA_Item
/-- examples/tests/13-ngap.rs:7711-7713 -/
def CellIDCancelledEUTRA_ItemIE_Extensions_Entry : Ty := .sequence false 0 .nil
/-- examples/tests/13-ngap.rs:7715-7724 -/
def CellIDCancelledEUTRA_ItemIE_Extensions : Ty := .sequenceOf (some 1) (some 65535) false CellIDCancelledEUTRA_ItemIE_Extensions_Entry
/-- examples/tests/13-ngap.rs:870-877 -/
def CellIDCancelledEUTRA_Item : Ty := .sequence true 1 (.required false EUTRA_CGI (.required false NumberOfBroadcasts (.optional 0 CellIDCancelledEUTRA_ItemIE_Extensions .nil)))
/-- examples/tests/13-ngap.rs:861-868 -/
def CellIDCancelledEUTRA : Ty := .sequenceOf (some 1) (some 65535) false CellIDCancelledEUTRA_Item
/-- examples/tests/13-ngap.rs:438-455 -/
def BroadcastCancelledAreaList : Ty := .choice 0 6 false (.cons 0 false CellIDCancelledEUTRA (.cons 1 false TAICancelledEUTRA (.cons 2 false EmergencyAreaIDCancelledEUTRA (.cons 3 false CellIDCancelledNR (.cons 4 false TAICancelledNR (.cons 5 false EmergencyAreaIDCancelledNR (.cons 6 false BroadcastCancelledAreaListchoice_Extensions .nil)))))))
/-- examples/tests/13-ngap.rs:7404-7406 -/
def BroadcastCompletedAreaListchoice_Extensions : Ty := .sequence false 0 .nil
/-- examples/tests/13-ngap.rs:8591-8593 -/
def EmergencyAreaIDBroadcastNR_ItemIE_Extensions_Entry : Ty := .sequence false 0 .nil
/-- examples/tests/13-ngap.rs:8595-8604 -/
def EmergencyAreaIDBroadcastNR_ItemIE_Extensions : Ty := .sequenceOf (some 1) (some 65535) false EmergencyAreaIDBroadcastNR_ItemIE_Extensions_Entry
/-- examples/tests/13-ngap.rs:7808-7810 -/
def CompletedCellsInEAI_NR_ItemIE_Extensions_Entry : Ty := .sequence false 0 .nil
/-- examples/tests/13-ngap.rs:7812-7821 -/
def CompletedCellsInEAI_NR_ItemIE_Extensions : Ty := .sequenceOf (some 1) (some 65535) false CompletedCellsInEAI_NR_ItemIE_Extensions_Entry
/-- examples/tests/13-ngap.rs:970-976 -/
def CompletedCellsInEAI_NR_Item : Ty := .sequence true 1 (.required false NR_CGI (.optional 0 CompletedCellsInEAI_NR_ItemIE_Extensions .nil))
/-- examples/tests/13-ngap.rs:961-968 -/
def CompletedCellsInEAI_NR : Ty := .sequenceOf (some 1) (some 65535) false CompletedCellsInEAI_NR_Item
/-- examples/tests/13-ngap.rs:1551-1558 -/
def EmergencyAreaIDBroadcastNR_Item : Ty := .sequence true 1 (.required false EmergencyAreaID (.required false CompletedCellsInEAI_NR (.optional 0 EmergencyAreaIDBroadcastNR_ItemIE_Extensions .nil)))
/-- examples/tests/13-ngap.rs:1542-1549 -/
def EmergencyAreaIDBroadcastNR : Ty := .sequenceOf (some 1) (some 65535) false EmergencyAreaIDBroadcastNR_Item
/-- examples/tests/13-ngap.rs:14210-14212 -/
def TAIBroadcastNR_ItemIE_Extensions_Entry : Ty := .sequence false 0 .nil
/-- examples/tests/13-ngap.rs:14214-14221 -/
def TAIBroadcastNR_ItemIE_Extensions : Ty := .sequenceOf (some 1) (some 65535) false TAIBroadcastNR_ItemIE_Extensions_Entry
/-- examples/tests/13-ngap.rs:7838-7840 -/
def CompletedCellsInTAI_NR_ItemIE_Extensions_Entry : Ty := .sequence false 0 .nil
/-- examples/tests/13-ngap.rs:7842-7851 -/
def CompletedCellsInTAI_NR_ItemIE_Extensions : Ty := .sequenceOf (some 1) (some 65535) false CompletedCellsInTAI_NR_ItemIE_Extensions_Entry
/-- examples/tests/13-ngap.rs:1004-1010 -/
def CompletedCellsInTAI_NR_Item : Ty := .sequence true 1 (.required false NR_CGI (.optional 0 CompletedCellsInTAI_NR_ItemIE_Extensions .nil))
/-- examples/tests/13-ngap.rs:995-1002 -/
def CompletedCellsInTAI_NR : Ty := .sequenceOf (some 1) (some 65535) false CompletedCellsInTAI_NR_Item
/-- examples/tests/13-ngap.rs:5740-5747 -/
def TAIBroadcastNR_Item : Ty := .sequence true 1 (.required false TAI (.required false CompletedCellsInTAI_NR (.optional 0 TAIBroadcastNR_ItemIE_Extensions .nil)))
/-- examples/tests/13-ngap.rs:5731-5738 -/
def TAIBroadcastNR : Ty := .sequenceOf (some 1) (some 65535) false TAIBroadcastNR_Item
/-- examples/tests/13-ngap.rs:7698-7700 -/
def CellIDBroadcastNR_ItemIE_Extensions_Entry : Ty := .sequence false 0 .nil
/-- examples/tests/13-ngap.rs:7702-7709 -/
def CellIDBroadcastNR_ItemIE_Extensions : Ty := .sequenceOf (some 1) (some 65535) false CellIDBroadcastNR_ItemIE_Extensions_Entry
/-- examples/tests/13-ngap.rs:853-859 -/
def CellIDBroadcastNR_Item : Ty := .sequence true 1 (.required false NR_CGI (.optional 0 CellIDBroadcastNR_ItemIE_Extensions .nil))
/-- examples/tests/13-ngap.rs:844-851 -/
def CellIDBroadcastNR : Ty := .sequenceOf (some 1) (some 65535) false CellIDBroadcastNR_Item
/-- examples/tests/13-ngap.rs:8576-8578 -/
def EmergencyAreaIDBroadcastEUTRA_ItemIE_Extensions_Entry : Ty := .sequence false 0 .nil
/-- examples/tests/13-ngap.rs:8580-8589 -/
def EmergencyAreaIDBroadcastEUTRA_ItemIE_Extensions : Ty := .sequenceOf (some 1) (some 65535) false EmergencyAreaIDBroadcastEUTRA_ItemIE_Extensions_Entry
/-- examples/tests/13-ngap.rs:7793-7795 -/
def CompletedCellsInEAI_EUTRA_ItemIE_Extensions_Entry : Ty := .sequence false 0 .nil
/-- examples/tests/13-ngap.rs:7797-7806 -/
def CompletedCellsInEAI_EUTRA_ItemIE_Extensions : Ty := .sequenceOf (some 1) (some 65535) false CompletedCellsInEAI_EUTRA_ItemIE_Extensions_Entry
/-- examples/tests/13-ngap.rs:953-959 -/
def CompletedCellsInEAI_EUTRA_Item : Ty := .sequence true 1 (.required false EUTRA_CGI (.optional 0 CompletedCellsInEAI_EUTRA_ItemIE_Extensions .nil))
/-- examples/tests/13-ngap.rs:944-951 -/
def CompletedCellsInEAI_EUTRA : Ty := .sequenceOf (some 1) (some 65535) false CompletedCellsInEAI_EUTRA_Item
/-- examples/tests/13-ngap.rs:1533-1540 -/
def EmergencyAreaIDBroadcastEUTRA_Item : Ty := .sequence true 1 (.required false EmergencyAreaID (.required false CompletedCellsInEAI_EUTRA (.optional 0 EmergencyAreaIDBroadcastEUTRA_ItemIE_Extensions .nil)))
/-- examples/tests/13-ngap.rs:1524-1531 -/
def EmergencyAreaIDBroadcastEUTRA : Ty := .sequenceOf (some 1) (some 65535) false EmergencyAreaIDBroadcastEUTRA_Item
/-- examples/tests/13-ngap.rs:14197-14199 -/
def TAIBroadcastEUTRA_ItemIE_Extensions_Entry : Ty := .sequence false 0 .nil
/-- examples/tests/13-ngap.rs:14201-14208 -/
def TAIBroadcastEUTRA_ItemIE_Extensions : Ty := .sequenceOf (some 1) (some 65535) false TAIBroadcastEUTRA_ItemIE_Extensions_Entry
/-- examples/tests/13-ngap.rs:7823-7825 -/
def CompletedCellsInTAI_EUTRA_ItemIE_Extensions_Entry : Ty := .sequence false 0 .nil
/-- examples/tests/13-ngap.rs:7827-7836 -/
def CompletedCellsInTAI_EUTRA_ItemIE_Extensions : Ty := .sequenceOf (some 1) (some 65535) false CompletedCellsInTAI_EUTRA_ItemIE_Extensions_Entry
/-- examples/tests/13-ngap.rs:987-993 -/
def CompletedCellsInTAI_EUTRA_Item : Ty := .sequence true 1 (.required false EUTRA_CGI (.optional 0 CompletedCellsInTAI_EUTRA_ItemIE_Extensions .nil))
/-- examples/tests/13-ngap.rs:978-985 -/
def CompletedCellsInTAI_EUTRA : Ty := .sequenceOf (some 1) (some 65535) false CompletedCellsInTAI_EUTRA_Item
/-- examples/tests/13-ngap.rs:5722-5729 -/
def TAIBroadcastEUTRA_Item : Ty := .sequence true 1 (.required false TAI (.required false CompletedCellsInTAI_EUTRA (.optional 0 TAIBroadcastEUTRA_ItemIE_Extensions .nil)))
/-- examples/tests/13-ngap.rs:5713-5720 -/
def TAIBroadcastEUTRA : Ty := .sequenceOf (some 1) (some 65535) false TAIBroadcastEUTRA_Item
/-- examples/tests/13-ngap.rs:7683-7685 -/
def CellIDBroadcastEUTRA_ItemIE_Extensions_Entry : Ty := .sequence false 0 .nil
/-- examples/tests/13-ngap.rs:7687-7696 -/
def CellIDBroadcastEUTRA_ItemIE_Extensions : Ty := .sequenceOf (some 1) (some 65535) false CellIDBroadcastEUTRA_ItemIE_Extensions_Entry
/-- examples/tests/13-ngap.rs:836-842 -/
def CellIDBroadcastEUTRA_Item : Ty := .sequence true 1 (.required false EUTRA_CGI (.optional 0 CellIDBroadcastEUTRA_ItemIE_Extensions .nil))
/-- examples/tests/13-ngap.rs:827-834 -/
def CellIDBroadcastEUTRA : Ty := .sequenceOf (some 1) (some 65535) false CellIDBroadcastEUTRA_Item
/-- examples/tests/13-ngap.rs:457-474 -/
def BroadcastCompletedAreaList : Ty := .choice 0 6 false (.cons 0 false CellIDBroadcastEUTRA (.cons 1 false TAIBroadcastEUTRA (.cons 2 false EmergencyAreaIDBroadcastEUTRA (.cons 3 false CellIDBroadcastNR (.cons 4 false TAIBroadcastNR (.cons 5 false EmergencyAreaIDBroadcastNR (.cons 6 false BroadcastCompletedAreaListchoice_Extensions .nil)))))))
/-- examples/tests/13-ngap.rs:7408-7415 -/
def BroadcastPLMNItemIE_Extensions_EntryExtensionValue : Ty := .openType (.cons 271 false ExtendedSliceSupportList (.cons 258 false NPN_Support .nil))
/-- examples/tests/13-ngap.rs:7417-7424 -/
def BroadcastPLMNItemIE_Extensions_Entry : Ty := .sequence false 0 (.required true ProtocolExtensionID (.required false Criticality (.required false BroadcastPLMNItemIE_Extensions_EntryExtensionValue .nil)))
/-- examples/tests/13-ngap.rs:7426-7433 -/
def BroadcastPLMNItemIE_Extensions : Ty := .sequenceOf (some 1) (some 65535) false BroadcastPLMNItemIE_Extensions_Entry
/-- examples/tests/13-ngap.rs:476-483 -/
def BroadcastPLMNItem : Ty := .sequence true 1 (.required false PLMNIdentity (.required false SliceSupportList (.optional 0 BroadcastPLMNItemIE_Extensions .nil)))
/-- examples/tests/13-ngap.rs:485-487 -/
def BroadcastPLMNList : Ty := .sequenceOf (some 1) (some 12) false BroadcastPLMNItem
/-- examples/tests/13-ngap.rs:489-491 -/
def BurstArrivalTime : Ty := .octetstring none none false
/-- examples/tests/13-ngap.rs:497-499 -/
def CEmodeBSupport_Indicator : Ty := .enumerated .u8 (some 0) (some 0) true
/-- examples/tests/13-ngap.rs:504-506 -/
def CEmodeBrestricted : Ty := .enumerated .u8 (some 0) (some 1) true
/-- examples/tests/13-ngap.rs:7435-7437 -/
def CNAssistedRANTuningIE_Extensions_Entry : Ty := .sequence false 0 .nil
/-- examples/tests/13-ngap.rs:7439-7446 -/
def CNAssistedRANTuningIE_Extensions : Ty := .sequenceOf (some 1) (some 65535) false CNAssistedRANTuningIE_Extensions_Entry
/-- examples/tests/13-ngap.rs:8738-8740 -/
def ExpectedUEBehaviourIE_Extensions_Entry : Ty := .sequence false 0 .nil
/-- examples/tests/13-ngap.rs:8742-8749 -/
def ExpectedUEBehaviourIE_Extensions : Ty := .sequenceOf (some 1) (some 65535) false ExpectedUEBehaviourIE_Extensions_Entry
/-- examples/tests/13-ngap.rs:8755-8757 -/
def ExpectedUEMovingTrajectoryItemIE_Extensions_Entry : Ty := .sequence false 0 .nil
/-- examples/tests/13-ngap.rs:8759-8768 -/
def ExpectedUEMovingTrajectoryItemIE_Extensions : Ty := .sequenceOf (some 1) (some 65535) false ExpectedUEMovingTrajectoryItemIE_Extensions_Entry
/-- examples/tests/13-ngap.rs:8751-8753 -/
def INTEGER_23 : Ty := .integer .u16 (some 0) (some 4095) false
/-- examples/tests/13-ngap.rs:1767-1775 -/
def ExpectedUEMovingTrajectoryItem : Ty := .sequence true 2 (.required false NGRAN_CGI (.optional 0 INTEGER_23 (.optional 1 ExpectedUEMovingTrajectoryItemIE_Extensions .nil)))
/-- examples/tests/13-ngap.rs:1763-1765 -/
def ExpectedUEMovingTrajectory : Ty := .sequenceOf (some 1) (some 16) false ExpectedUEMovingTrajectoryItem
/-- examples/tests/13-ngap.rs:1755-1757 -/
def ExpectedUEMobility : Ty := .enumerated .u8 (some 0) (some 1) true
/-- examples/tests/13-ngap.rs:1710-1712 -/
def ExpectedHOInterval : Ty := .enumerated .u8 (some 0) (some 6) true
/-- examples/tests/13-ngap.rs:8723-8725 -/
def ExpectedUEActivityBehaviourIE_Extensions_Entry : Ty := .sequence false 0 .nil
/-- examples/tests/13-ngap.rs:8727-8736 -/
def ExpectedUEActivityBehaviourIE_Extensions : Ty := .sequenceOf (some 1) (some 65535) false ExpectedUEActivityBehaviourIE_Extensions_Entry
/-- examples/tests/13-ngap.rs:5602-5604 -/
def SourceOfUEActivityBehaviourInformation : Ty := .enumerated .u8 (some 0) (some 1) true
/-- examples/tests/13-ngap.rs:1723-1725 -/
def ExpectedIdlePeriod : Ty := .integer .u8 (some 1) (some 30) true
/-- examples/tests/13-ngap.rs:1706-1708 -/
def ExpectedActivityPeriod : Ty := .integer .u8 (some 1) (some 30) true
/-- examples/tests/13-ngap.rs:1727-1738 -/
def ExpectedUEActivityBehaviour : Ty := .sequence true 4 (.optional 0 ExpectedActivityPeriod (.optional 1 ExpectedIdlePeriod (.optional 2 SourceOfUEActivityBehaviourInformation (.optional 3 ExpectedUEActivityBehaviourIE_Extensions .nil))))
/-- examples/tests/13-ngap.rs:1740-1753 -/
def ExpectedUEBehaviour : Ty := .sequence true 5 (.optional 0 ExpectedUEActivityBehaviour (.optional 1 ExpectedHOInterval (.optional 2 ExpectedUEMobility (.optional 3 ExpectedUEMovingTrajectory (.optional 4 ExpectedUEBehaviourIE_Extensions .nil)))))
/-- examples/tests/13-ngap.rs:512-519 -/
def CNAssistedRANTuning : Ty := .sequence true 2 (.optional 0 ExpectedUEBehaviour (.optional 1 CNAssistedRANTuningIE_Extensions .nil))
/-- examples/tests/13-ngap.rs:7456-7458 -/
def CNTypeRestrictionsForEquivalentItemIE_Extensions_Entry : Ty := .sequence false 0 .nil
/-- examples/tests/13-ngap.rs:7460-7469 -/
def CNTypeRestrictionsForEquivalentItemIE_Extensions : Ty := .sequenceOf (some 1) (some 65535) false CNTypeRestrictionsForEquivalentItemIE_Extensions_Entry
/-- examples/tests/13-ngap.rs:7448-7450 -/
def ENUMERATED_7 : Ty := .enumerated .u8 (some 0) (some 1) true
/-- examples/tests/13-ngap.rs:525-532 -/
def CNTypeRestrictionsForEquivalentItem : Ty := .sequence true 1 (.required false PLMNIdentity (.required false ENUMERATED_7 (.optional 0 CNTypeRestrictionsForEquivalentItemIE_Extensions .nil)))
/-- examples/tests/13-ngap.rs:521-523 -/
def CNTypeRestrictionsForEquivalent : Ty := .sequenceOf (some 1) (some 15) false CNTypeRestrictionsForEquivalentItem
/-- examples/tests/13-ngap.rs:534-536 -/
def CNTypeRestrictionsForServing : Ty := .enumerated .u8 (some 0) (some 0) true
/-- examples/tests/13-ngap.rs:7479-7481 -/
def COUNTValueForPDCP_SN12IE_Extensions_Entry : Ty := .sequence false 0 .nil
/-- examples/tests/13-ngap.rs:7483-7490 -/
def COUNTValueForPDCP_SN12IE_Extensions : Ty := .sequenceOf (some 1) (some 65535) false COUNTValueForPDCP_SN12IE_Extensions_Entry
/-- examples/tests/13-ngap.rs:7475-7477 -/
def INTEGER_9 : Ty := .integer .u32 (some 0) (some 1048575) false
/-- examples/tests/13-ngap.rs:7471-7473 -/
def INTEGER_8 : Ty := .integer .u16 (some 0) (some 4095) false
/-- examples/tests/13-ngap.rs:541-548 -/
def COUNTValueForPDCP_SN12 : Ty := .sequence true 1 (.required false INTEGER_8 (.required false INTEGER_9 (.optional 0 COUNTValueForPDCP_SN12IE_Extensions .nil)))
/-- examples/tests/13-ngap.rs:7500-7502 -/
def COUNTValueForPDCP_SN18IE_Extensions_Entry : Ty := .sequence false 0 .nil
/-- examples/tests/13-ngap.rs:7504-7511 -/
def COUNTValueForPDCP_SN18IE_Extensions : Ty := .sequenceOf (some 1) (some 65535) false COUNTValueForPDCP_SN18IE_Extensions_Entry
/-- examples/tests/13-ngap.rs:7496-7498 -/
def INTEGER_11 : Ty := .integer .u16 (some 0) (some 16383) false
/-- examples/tests/13-ngap.rs:7492-7494 -/
def INTEGER_10 : Ty := .integer .u32 (some 0) (some 262143) false
/-- examples/tests/13-ngap.rs:550-557 -/
def COUNTValueForPDCP_SN18 : Ty := .sequence true 1 (.required false INTEGER_10 (.required false INTEGER_11 (.optional 0 COUNTValueForPDCP_SN18IE_Extensions .nil)))
/-- examples/tests/13-ngap.rs:568-570 -/
def CancelAllWarningMessages : Ty := .enumerated .u8 (some 0) (some 0) true
/-- examples/tests/13-ngap.rs:7589-7591 -/
def CandidateCellchoice_Extensions : Ty := .sequence false 0 .nil
/-- examples/tests/13-ngap.rs:7627-7629 -/
def CandidatePCIIE_Extensions_Entry : Ty := .sequence false 0 .nil
/-- examples/tests/13-ngap.rs:7631-7638 -/
def CandidatePCIIE_Extensions : Ty := .sequenceOf (some 1) (some 65535) false CandidatePCIIE_Extensions_Entry
/-- examples/tests/13-ngap.rs:7623-7625 -/
def INTEGER_13 : Ty := .integer .u32 (some 0) (some 3279165) false
/-- examples/tests/13-ngap.rs:7619-7621 -/
def INTEGER_12 : Ty := .integer .u16 (some 0) (some 1007) true
/-- examples/tests/13-ngap.rs:678-685 -/
def CandidatePCI : Ty := .sequence true 1 (.required false INTEGER_12 (.required false INTEGER_13 (.optional 0 CandidatePCIIE_Extensions .nil)))
/-- examples/tests/13-ngap.rs:7593-7595 -/
def CandidateCellIDIE_Extensions_Entry : Ty := .sequence false 0 .nil
/-- examples/tests/13-ngap.rs:7597-7604 -/
def CandidateCellIDIE_Extensions : Ty := .sequenceOf (some 1) (some 65535) false CandidateCellIDIE_Extensions_Entry
/-- examples/tests/13-ngap.rs:658-664 -/
def CandidateCellID : Ty := .sequence true 1 (.required false NR_CGI (.optional 0 CandidateCellIDIE_Extensions .nil))
/-- examples/tests/13-ngap.rs:647-656 -/
def CandidateCell : Ty := .choice 0 2 false (.cons 0 false CandidateCellID (.cons 1 false CandidatePCI (.cons 2 false CandidateCellchoice_Extensions .nil)))
/-- examples/tests/13-ngap.rs:7606-7608 -/
def CandidateCellItemIE_Extensions_Entry : Ty := .sequence false 0 .nil
/-- examples/tests/13-ngap.rs:7610-7617 -/
def CandidateCellItemIE_Extensions : Ty := .sequenceOf (some 1) (some 65535) false CandidateCellItemIE_Extensions_Entry
/-- examples/tests/13-ngap.rs:666-672 -/
def CandidateCellItem : Ty := .sequence true 1 (.required false CandidateCell (.optional 0 CandidateCellItemIE_Extensions .nil))
/-- examples/tests/13-ngap.rs:674-676 -/
def CandidateCellList : Ty := .sequenceOf (some 1) (some 32) false CandidateCellItem
/-- examples/tests/13-ngap.rs:7644-7646 -/
def Cell_CAGInformationIE_Extensions_Entry : Ty := .sequence false 0 .nil
/-- examples/tests/13-ngap.rs:7648-7655 -/
def Cell_CAGInformationIE_Extensions : Ty := .sequenceOf (some 1) (some 65535) false Cell_CAGInformationIE_Extensions_Entry
/-- examples/tests/13-ngap.rs:823-825 -/
def CellCAGList : Ty := .sequenceOf (some 1) (some 64) false CAG_ID
/-- examples/tests/13-ngap.rs:798-805 -/
def Cell_CAGInformation : Ty := .sequence true 1 (.required false NGRAN_CGI (.required false CellCAGList (.optional 0 Cell_CAGInformationIE_Extensions .nil)))
/-- examples/tests/13-ngap.rs:7739-7741 -/
def CellIDListForRestartchoice_Extensions : Ty := .sequence false 0 .nil
/-- examples/tests/13-ngap.rs:3150-3157 -/
def NR_CGIList : Ty := .sequenceOf (some 1) (some 16384) false NR_CGI
/-- examples/tests/13-ngap.rs:1482-1489 -/
def EUTRA_CGIList : Ty := .sequenceOf (some 1) (some 256) false EUTRA_CGI
/-- examples/tests/13-ngap.rs:897-906 -/
def CellIDListForRestart : Ty := .choice 0 2 false (.cons 0 false EUTRA_CGIList (.cons 1 false NR_CGIList (.cons 2 false CellIDListForRestartchoice_Extensions .nil)))
/-- examples/tests/13-ngap.rs:916-918 -/
def CellSize : Ty := .enumerated .u8 (some 0) (some 3) true
/-- examples/tests/13-ngap.rs:6523-6525 -/
def URI_address : Ty := .charstring .visible none none false
/-- examples/tests/13-ngap.rs:4662-4664 -/
def PrivacyIndicator : Ty := .enumerated .u8 (some 0) (some 1) true
/-- examples/tests/13-ngap.rs:3065-3067 -/
def NGRANTraceID : Ty := .octetstring (some 8) (some 8) false
/-- examples/tests/13-ngap.rs:7743-7760 -/
def CellTrafficTraceProtocolIEs_EntryValue : Ty := .openType (.cons 10 false AMF_UE_NGAP_ID (.cons 43 false NGRAN_CGI (.cons 44 false NGRANTraceID (.cons 256 false PrivacyIndicator (.cons 85 false RAN_UE_NGAP_ID (.cons 109 false TransportLayerAddress (.cons 257 false URI_address .nil)))))))
/-- examples/tests/13-ngap.rs:7762-7769 -/
def CellTrafficTraceProtocolIEs_Entry : Ty := .sequence false 0 (.required true ProtocolIE_ID (.required false Criticality (.required false CellTrafficTraceProtocolIEs_EntryValue .nil)))
/-- examples/tests/13-ngap.rs:7771-7778 -/
def CellTrafficTraceProtocolIEs : Ty := .sequenceOf (some 0) (some 65535) false CellTrafficTraceProtocolIEs_Entry
/-- examples/tests/13-ngap.rs:926-930 -/
def CellTrafficTrace : Ty := .sequence true 0 (.required false CellTrafficTraceProtocolIEs .nil)
/-- examples/tests/13-ngap.rs:7780-7782 -/
def CellTypeIE_Extensions_Entry : Ty := .sequence false 0 .nil
/-- examples/tests/13-ngap.rs:7784-7791 -/
def CellTypeIE_Extensions : Ty := .sequenceOf (some 1) (some 65535) false CellTypeIE_Extensions_Entry
/-- examples/tests/13-ngap.rs:932-938 -/
def CellType : Ty := .sequence true 1 (.required false CellSize (.optional 0 CellTypeIE_Extensions .nil))
/-- examples/tests/13-ngap.rs:940-942 -/
def CommonNetworkInstance : Ty := .octetstring none none false
/-- examples/tests/13-ngap.rs:1012-1014 -/
def ConcurrentWarningMessageInd : Ty := .enumerated .u8 (some 0) (some 0) true
/-- examples/tests/13-ngap.rs:1019-1021 -/
def ConfidentialityProtectionIndication : Ty := .enumerated .u8 (some 0) (some 2) true
/-- examples/tests/13-ngap.rs:1028-1030 -/
def ConfidentialityProtectionResult : Ty := .enumerated .u8 (some 0) (some 1) true
/-- examples/tests/13-ngap.rs:1036-1043 -/
def ConfiguredNSSAI : Ty := .octetstring (some 128) (some 128) false
/-- examples/tests/13-ngap.rs:1045-1047 -/
def ConfiguredTACIndication : Ty := .enumerated .u8 (some 0) (some 0) true
/-- examples/tests/13-ngap.rs:6406-6408 -/
def UERadioCapabilityID : Ty := .octetstring none none false
/-- examples/tests/13-ngap.rs:6367-6369 -/
def UERadioCapability : Ty := .octetstring none none false
/-- examples/tests/13-ngap.rs:14570-14572 -/
def UE_DifferentiationInfoIE_Extensions_Entry : Ty := .sequence false 0 .nil
/-- examples/tests/13-ngap.rs:14574-14581 -/
def UE_DifferentiationInfoIE_Extensions : Ty := .sequenceOf (some 1) (some 65535) false UE_DifferentiationInfoIE_Extensions_Entry
/-- examples/tests/13-ngap.rs:14561-14563 -/
def ENUMERATED_87 : Ty := .enumerated .u8 (some 0) (some 2) true
/-- examples/tests/13-ngap.rs:14552-14554 -/
def ENUMERATED_86 : Ty := .enumerated .u8 (some 0) (some 2) true
/-- examples/tests/13-ngap.rs:14544-14546 -/
def ENUMERATED_85 : Ty := .enumerated .u8 (some 0) (some 1) true
/-- examples/tests/13-ngap.rs:13774-13776 -/
def ScheduledCommunicationTimeIE_Extensions_Entry : Ty := .sequence false 0 .nil
/-- examples/tests/13-ngap.rs:13778-13787 -/
def ScheduledCommunicationTimeIE_Extensions : Ty := .sequenceOf (some 1) (some 65535) false ScheduledCommunicationTimeIE_Extensions_Entry
/-- examples/tests/13-ngap.rs:13770-13772 -/
def INTEGER_77 : Ty := .integer .u32 (some 0) (some 86399) true
/-- examples/tests/13-ngap.rs:13766-13768 -/
def INTEGER_76 : Ty := .integer .u32 (some 0) (some 86399) true
/-- examples/tests/13-ngap.rs:13762-13764 -/
def BIT_STRING_75 : Ty := .bitstring (some 7) (some 7) false
/-- examples/tests/13-ngap.rs:5390-5401 -/
def ScheduledCommunicationTime : Ty := .sequence true 4 (.optional 0 BIT_STRING_75 (.optional 1 INTEGER_76 (.optional 2 INTEGER_77 (.optional 3 ScheduledCommunicationTimeIE_Extensions .nil))))
/-- examples/tests/13-ngap.rs:14540-14542 -/
def INTEGER_84 : Ty := .integer .u16 (some 1) (some 3600) true
/-- examples/tests/13-ngap.rs:14532-14534 -/
def ENUMERATED_83 : Ty := .enumerated .u8 (some 0) (some 1) true
/-- examples/tests/13-ngap.rs:6109-6126 -/
def UE_DifferentiationInfo : Ty := .sequence true 7 (.optional 0 ENUMERATED_83 (.optional 1 INTEGER_84 (.optional 2 ScheduledCommunicationTime (.optional 3 ENUMERATED_85 (.optional 4 ENUMERATED_86 (.optional 5 ENUMERATED_87 (.optional 6 UE_DifferentiationInfoIE_Extensions .nil)))))))
/-- examples/tests/13-ngap.rs:3025-3027 -/
def NB_IoT_UEPriority : Ty := .integer .u8 (some 0) (some 255) true
/-- examples/tests/13-ngap.rs:1656-1658 -/
def Enhanced_CoverageRestriction : Ty := .enumerated .u8 (some 0) (some 0) true
/-- examples/tests/13-ngap.rs:1639-1641 -/
def EndIndication : Ty := .enumerated .u8 (some 0) (some 1) true
/-- examples/tests/13-ngap.rs:8016-8018 -/
def DL_CP_SecurityInformationIE_Extensions_Entry : Ty := .sequence false 0 .nil
/-- examples/tests/13-ngap.rs:8020-8029 -/
def DL_CP_SecurityInformationIE_Extensions : Ty := .sequenceOf (some 1) (some 65535) false DL_CP_SecurityInformationIE_Extensions_Entry
/-- examples/tests/13-ngap.rs:1158-1160 -/
def DL_NAS_MAC : Ty := .bitstring (some 16) (some 16) false
/-- examples/tests/13-ngap.rs:1150-1156 -/
def DL_CP_SecurityInformation : Ty := .sequence true 1 (.required false DL_NAS_MAC (.optional 0 DL_CP_SecurityInformationIE_Extensions .nil))
/-- examples/tests/13-ngap.rs:7853-7880 -/
def ConnectionEstablishmentIndicationProtocolIEs_EntryValue : Ty := .openType (.cons 10 false AMF_UE_NGAP_ID (.cons 0 false AllowedNSSAI (.cons 222 false CEmodeBrestricted (.cons 212 false DL_CP_SecurityInformation (.cons 226 false EndIndication (.cons 205 false Enhanced_CoverageRestriction (.cons 210 false NB_IoT_UEPriority (.cons 85 false RAN_UE_NGAP_ID (.cons 148 false S_NSSAI (.cons 209 false UE_DifferentiationInfo (.cons 117 false UERadioCapability (.cons 264 false UERadioCapabilityID .nil))))))))))))
/-- examples/tests/13-ngap.rs:7882-7889 -/
def ConnectionEstablishmentIndicationProtocolIEs_Entry : Ty := .sequence false 0 (.required true ProtocolIE_ID (.required false Criticality (.required false ConnectionEstablishmentIndicationProtocolIEs_EntryValue .nil)))
/-- examples/tests/13-ngap.rs:7891-7900 -/
def ConnectionEstablishmentIndicationProtocolIEs : Ty := .sequenceOf (some 0) (some 65535) false ConnectionEstablishmentIndicationProtocolIEs_Entry
/-- examples/tests/13-ngap.rs:1052-1056 -/
def ConnectionEstablishmentIndication : Ty := .sequence true 0 (.required false ConnectionEstablishmentIndicationProtocolIEs .nil)
/-- examples/tests/13-ngap.rs:6398-6400 -/
def UERadioCapabilityForPagingOfNB_IoT : Ty := .octetstring none none false
/-- examples/tests/13-ngap.rs:15247-15252 -/
def UERadioCapabilityForPagingIE_Extensions_EntryExtensionValue : Ty := .openType (.cons 214 false UERadioCapabilityForPagingOfNB_IoT .nil)
/-- examples/tests/13-ngap.rs:15254-15261 -/
def UERadioCapabilityForPagingIE_Extensions_Entry : Ty := .sequence false 0 (.required true ProtocolExtensionID (.required false Criticality (.required false UERadioCapabilityForPagingIE_Extensions_EntryExtensionValue .nil)))
/-- examples/tests/13-ngap.rs:15263-15272 -/
def UERadioCapabilityForPagingIE_Extensions : Ty := .sequenceOf (some 1) (some 65535) false UERadioCapabilityForPagingIE_Extensions_Entry
/-- examples/tests/13-ngap.rs:6394-6396 -/
def UERadioCapabilityForPagingOfEUTRA : Ty := .octetstring none none false
/-- examples/tests/13-ngap.rs:6402-6404 -/
def UERadioCapabilityForPagingOfNR : Ty := .octetstring none none false
/-- examples/tests/13-ngap.rs:6383-6392 -/
def UERadioCapabilityForPaging : Ty := .sequence true 3 (.optional 0 UERadioCapabilityForPagingOfNR (.optional 1 UERadioCapabilityForPagingOfEUTRA (.optional 2 UERadioCapabilityForPagingIE_Extensions .nil)))
/-- examples/tests/13-ngap.rs:12673-12675 -/
def PagingeDRXInformationIE_Extensions_Entry : Ty := .sequence false 0 .nil
/-- examples/tests/13-ngap.rs:12677-12684 -/
def PagingeDRXInformationIE_Extensions : Ty := .sequenceOf (some 1) (some 65535) false PagingeDRXInformationIE_Extensions_Entry
/-- examples/tests/13-ngap.rs:4417-4419 -/
def Paging_Time_Window : Ty := .enumerated .u8 (some 0) (some 15) true
/-- examples/tests/13-ngap.rs:4439-4441 -/
def Paging_eDRX_Cycle : Ty := .enumerated .u8 (some 0) (some 13) true
/-- examples/tests/13-ngap.rs:4541-4549 -/
def PagingeDRXInformation : Ty := .sequence true 2 (.required false Paging_eDRX_Cycle (.optional 0 Paging_Time_Window (.optional 1 PagingeDRXInformationIE_Extensions .nil)))
/-- examples/tests/13-ngap.rs:1829-1831 -/
def ExtendedUEIdentityIndexValue : Ty := .bitstring (some 16) (some 16) false
/-- examples/tests/13-ngap.rs:7902-7911 -/
def CoreNetworkAssistanceInformationForInactiveIE_Extensions_EntryExtensionValue : Ty := .openType (.cons 280 false ExtendedUEIdentityIndexValue (.cons 223 false PagingeDRXInformation (.cons 118 false UERadioCapabilityForPaging .nil)))
/-- examples/tests/13-ngap.rs:7913-7921 -/
def CoreNetworkAssistanceInformationForInactiveIE_Extensions_Entry : Ty := .sequence false 0 (.required true ProtocolExtensionID (.required false Criticality (.required false CoreNetworkAssistanceInformationForInactiveIE_Extensions_EntryExtensionValue .nil)))
/-- examples/tests/13-ngap.rs:7923-7932 -/
def CoreNetworkAssistanceInformationForInactiveIE_Extensions : Ty := .sequenceOf (some 1) (some 65535) false CoreNetworkAssistanceInformationForInactiveIE_Extensions_Entry
/-- examples/tests/13-ngap.rs:14249-14251 -/
def TAIListForInactiveItemIE_Extensions_Entry : Ty := .sequence false 0 .nil
/-- examples/tests/13-ngap.rs:14253-14260 -/
def TAIListForInactiveItemIE_Extensions : Ty := .sequenceOf (some 1) (some 65535) false TAIListForInactiveItemIE_Extensions_Entry
/-- examples/tests/13-ngap.rs:5789-5795 -/
def TAIListForInactiveItem : Ty := .sequence true 1 (.required false TAI (.optional 0 TAIListForInactiveItemIE_Extensions .nil))
/-- examples/tests/13-ngap.rs:5785-5787 -/
def TAIListForInactive : Ty := .sequenceOf (some 1) (some 16) false TAIListForInactiveItem
/-- examples/tests/13-ngap.rs:2866-2868 -/
def MICOModeIndication : Ty := .enumerated .u8 (some 0) (some 0) true
/-- examples/tests/13-ngap.rs:4617-4619 -/
def PeriodicRegistrationUpdateTimer : Ty := .bitstring (some 8) (some 8) false
/-- examples/tests/13-ngap.rs:4483-4485 -/
def PagingDRX : Ty := .enumerated .u8 (some 0) (some 3) true
/-- examples/tests/13-ngap.rs:15119-15121 -/
def UEIdentityIndexValuechoice_Extensions : Ty := .sequence false 0 .nil
/-- examples/tests/13-ngap.rs:15115-15117 -/
def BIT_STRING_88 : Ty := .bitstring (some 10) (some 10) false
/-- examples/tests/13-ngap.rs:6310-6317 -/
def UEIdentityIndexValue : Ty := .choice 0 1 false (.cons 0 false BIT_STRING_88 (.cons 1 false UEIdentityIndexValuechoice_Extensions .nil))
/-- examples/tests/13-ngap.rs:1058-1072 -/
def CoreNetworkAssistanceInformationForInactive : Ty := .sequence true 4 (.required false UEIdentityIndexValue (.optional 0 PagingDRX (.required false PeriodicRegistrationUpdateTimer (.optional 1 MICOModeIndication (.required false TAIListForInactive (.optional 2 ExpectedUEBehaviour (.optional 3 CoreNetworkAssistanceInformationForInactiveIE_Extensions .nil)))))))
/-- examples/tests/13-ngap.rs:7969-7971 -/
def DAPSRequestInfoIE_Extensions_Entry : Ty := .sequence false 0 .nil
/-- examples/tests/13-ngap.rs:7973-7980 -/
def DAPSRequestInfoIE_Extensions : Ty := .sequenceOf (some 1) (some 65535) false DAPSRequestInfoIE_Extensions_Entry
/-- examples/tests/13-ngap.rs:7962-7964 -/
def ENUMERATED_14 : Ty := .enumerated .u8 (some 0) (some 0) true
/-- examples/tests/13-ngap.rs:1121-1127 -/
def DAPSRequestInfo : Ty := .sequence true 1 (.required false ENUMERATED_14 (.optional 0 DAPSRequestInfoIE_Extensions .nil))
/-- examples/tests/13-ngap.rs:7990-7992 -/
def DAPSResponseInfoIE_Extensions_Entry : Ty := .sequence false 0 .nil
/-- examples/tests/13-ngap.rs:7994-8001 -/
def DAPSResponseInfoIE_Extensions : Ty := .sequenceOf (some 1) (some 65535) false DAPSResponseInfoIE_Extensions_Entry
/-- examples/tests/13-ngap.rs:7982-7984 -/
def ENUMERATED_15 : Ty := .enumerated .u8 (some 0) (some 1) true
/-- examples/tests/13-ngap.rs:1129-1135 -/
def DAPSResponseInfo : Ty := .sequence true 1 (.required false ENUMERATED_15 (.optional 0 DAPSResponseInfoIE_Extensions .nil))
/-- examples/tests/13-ngap.rs:8003-8005 -/
def DAPSResponseInfoItemIE_Extension_Entry : Ty := .sequence false 0 .nil
/-- examples/tests/13-ngap.rs:8007-8014 -/
def DAPSResponseInfoItemIE_Extension : Ty := .sequenceOf (some 1) (some 65535) false DAPSResponseInfoItemIE_Extension_Entry
/-- examples/tests/13-ngap.rs:1176-1178 -/
def DRB_ID : Ty := .integer .u8 (some 1) (some 32) true
/-- examples/tests/13-ngap.rs:1137-1144 -/
def DAPSResponseInfoItem : Ty := .sequence true 1 (.required false DRB_ID (.required false DAPSResponseInfo (.optional 0 DAPSResponseInfoItemIE_Extension .nil)))
/-- examples/tests/13-ngap.rs:1146-1148 -/
def DAPSResponseInfoList : Ty := .sequenceOf (some 1) (some 32) false DAPSResponseInfoItem
/-- examples/tests/13-ngap.rs:1162-1164 -/
def DL_NGU_TNLInformationReused : Ty := .enumerated .u8 (some 0) (some 0) true
/-- examples/tests/13-ngap.rs:1169-1171 -/
def DLForwarding : Ty := .enumerated .u8 (some 0) (some 0) true
/-- examples/tests/13-ngap.rs:8031-8033 -/
def DRBStatusDLchoice_Extensions : Ty := .sequence false 0 .nil
/-- examples/tests/13-ngap.rs:8048-8050 -/
def DRBStatusDL18IE_Extension_Entry : Ty := .sequence false 0 .nil
/-- examples/tests/13-ngap.rs:8052-8059 -/
def DRBStatusDL18IE_Extension : Ty := .sequenceOf (some 1) (some 65535) false DRBStatusDL18IE_Extension_Entry
/-- examples/tests/13-ngap.rs:1199-1205 -/
def DRBStatusDL18 : Ty := .sequence true 1 (.required false COUNTValueForPDCP_SN18 (.optional 0 DRBStatusDL18IE_Extension .nil))
/-- examples/tests/13-ngap.rs:8035-8037 -/
def DRBStatusDL12IE_Extension_Entry : Ty := .sequence false 0 .nil
/-- examples/tests/13-ngap.rs:8039-8046 -/
def DRBStatusDL12IE_Extension : Ty := .sequenceOf (some 1) (some 65535) false DRBStatusDL12IE_Extension_Entry
/-- examples/tests/13-ngap.rs:1191-1197 -/
def DRBStatusDL12 : Ty := .sequence true 1 (.required false COUNTValueForPDCP_SN12 (.optional 0 DRBStatusDL12IE_Extension .nil))
/-- examples/tests/13-ngap.rs:1180-1189 -/
def DRBStatusDL : Ty := .choice 0 2 false (.cons 0 false DRBStatusDL12 (.cons 1 false DRBStatusDL18 (.cons 2 false DRBStatusDLchoice_Extensions .nil)))
/-- examples/tests/13-ngap.rs:8061-8063 -/
def DRBStatusULchoice_Extensions : Ty := .sequence false 0 .nil
/-- examples/tests/13-ngap.rs:8091-8093 -/
def DRBStatusUL18IE_Extension_Entry : Ty := .sequence false 0 .nil
/-- examples/tests/13-ngap.rs:8095-8102 -/
def DRBStatusUL18IE_Extension : Ty := .sequenceOf (some 1) (some 65535) false DRBStatusUL18IE_Extension_Entry
/-- examples/tests/13-ngap.rs:8082-8089 -/
def BIT_STRING_17 : Ty := .bitstring (some 1) (some 131072) false
/-- examples/tests/13-ngap.rs:1228-1236 -/
def DRBStatusUL18 : Ty := .sequence true 2 (.required false COUNTValueForPDCP_SN18 (.optional 0 BIT_STRING_17 (.optional 1 DRBStatusUL18IE_Extension .nil)))
/-- examples/tests/13-ngap.rs:8069-8071 -/
def DRBStatusUL12IE_Extension_Entry : Ty := .sequence false 0 .nil
/-- examples/tests/13-ngap.rs:8073-8080 -/
def DRBStatusUL12IE_Extension : Ty := .sequenceOf (some 1) (some 65535) false DRBStatusUL12IE_Extension_Entry
/-- examples/tests/13-ngap.rs:8065-8067 -/
def BIT_STRING_16 : Ty := .bitstring (some 1) (some 2048) false
/-- examples/tests/13-ngap.rs:1218-1226 -/
def DRBStatusUL12 : Ty := .sequence true 2 (.required false COUNTValueForPDCP_SN12 (.optional 0 BIT_STRING_16 (.optional 1 DRBStatusUL12IE_Extension .nil)))
/-- examples/tests/13-ngap.rs:1207-1216 -/
def DRBStatusUL : Ty := .choice 0 2 false (.cons 0 false DRBStatusUL12 (.cons 1 false DRBStatusUL18 (.cons 2 false DRBStatusULchoice_Extensions .nil)))
/-- examples/tests/13-ngap.rs:8104-8106 -/
def DRBsSubjectToEarlyStatusTransfer_ItemIE_Extension_Entry : Ty := .sequence false 0 .nil
/-- examples/tests/13-ngap.rs:8108-8117 -/
def DRBsSubjectToEarlyStatusTransfer_ItemIE_Extension : Ty := .sequenceOf (some 1) (some 65535) false DRBsSubjectToEarlyStatusTransfer_ItemIE_Extension_Entry
/-- examples/tests/13-ngap.rs:1238-1245 -/
def DRBsSubjectToEarlyStatusTransfer_Item : Ty := .sequence true 1 (.required false DRB_ID (.required false DRBStatusDL (.optional 0 DRBsSubjectToEarlyStatusTransfer_ItemIE_Extension .nil)))
/-- examples/tests/13-ngap.rs:1247-1249 -/
def DRBsSubjectToEarlyStatusTransfer_List : Ty := .sequenceOf (some 1) (some 32) false DRBsSubjectToEarlyStatusTransfer_Item
/-- examples/tests/13-ngap.rs:8119-8124 -/
def DRBsSubjectToStatusTransferItemIE_Extension_EntryExtensionValue : Ty := .openType (.cons 159 false AssociatedQosFlowList .nil)
/-- examples/tests/13-ngap.rs:8126-8133 -/
def DRBsSubjectToStatusTransferItemIE_Extension_Entry : Ty := .sequence false 0 (.required true ProtocolExtensionID (.required false Criticality (.required false DRBsSubjectToStatusTransferItemIE_Extension_EntryExtensionValue .nil)))
/-- examples/tests/13-ngap.rs:8135-8144 -/
def DRBsSubjectToStatusTransferItemIE_Extension : Ty := .sequenceOf (some 1) (some 65535) false DRBsSubjectToStatusTransferItemIE_Extension_Entry
/-- examples/tests/13-ngap.rs:1251-1259 -/
def DRBsSubjectToStatusTransferItem : Ty := .sequence true 1 (.required false DRB_ID (.required false DRBStatusUL (.required false DRBStatusDL (.optional 0 DRBsSubjectToStatusTransferItemIE_Extension .nil))))
/-- examples/tests/13-ngap.rs:1261-1263 -/
def DRBsSubjectToStatusTransferList : Ty := .sequenceOf (some 1) (some 32) false DRBsSubjectToStatusTransferItem
/-- examples/tests/13-ngap.rs:8146-8151 -/
def DRBsToQosFlowsMappingItemIE_Extensions_EntryExtensionValue : Ty := .openType (.cons 266 false DAPSRequestInfo .nil)
/-- examples/tests/13-ngap.rs:8153-8160 -/
def DRBsToQosFlowsMappingItemIE_Extensions_Entry : Ty := .sequence false 0 (.required true ProtocolExtensionID (.required false Criticality (.required false DRBsToQosFlowsMappingItemIE_Extensions_EntryExtensionValue .nil)))
/-- examples/tests/13-ngap.rs:8162-8171 -/
def DRBsToQosFlowsMappingItemIE_Extensions : Ty := .sequenceOf (some 1) (some 65535) false DRBsToQosFlowsMappingItemIE_Extensions_Entry
/-- examples/tests/13-ngap.rs:1265-1272 -/
def DRBsToQosFlowsMappingItem : Ty := .sequence true 1 (.required false DRB_ID (.required false AssociatedQosFlowList (.optional 0 DRBsToQosFlowsMappingItemIE_Extensions .nil)))
/-- examples/tests/13-ngap.rs:1274-1276 -/
def DRBsToQosFlowsMappingList : Ty := .sequenceOf (some 1) (some 32) false DRBsToQosFlowsMappingItem
/-- examples/tests/13-ngap.rs:1278-1280 -/
def DataCodingScheme : Ty := .bitstring (some 8) (some 8) false
/-- examples/tests/13-ngap.rs:1289-1291 -/
def DataForwardingNotPossible : Ty := .enumerated .u8 (some 0) (some 0) true
/-- examples/tests/13-ngap.rs:8173-8175 -/
def DataForwardingResponseDRBItemIE_Extensions_Entry : Ty := .sequence false 0 .nil
/-- examples/tests/13-ngap.rs:8177-8186 -/
def DataForwardingResponseDRBItemIE_Extensions : Ty := .sequenceOf (some 1) (some 65535) false DataForwardingResponseDRBItemIE_Extensions_Entry
/-- examples/tests/13-ngap.rs:1296-1306 -/
def DataForwardingResponseDRBItem : Ty := .sequence true 3 (.required false DRB_ID (.optional 0 UPTransportLayerInformation (.optional 1 UPTransportLayerInformation (.optional 2 DataForwardingResponseDRBItemIE_Extensions .nil))))
/-- examples/tests/13-ngap.rs:1308-1310 -/
def DataForwardingResponseDRBList : Ty := .sequenceOf (some 1) (some 32) false DataForwardingResponseDRBItem
/-- examples/tests/13-ngap.rs:8188-8190 -/
def DataForwardingResponseERABListItemIE_Extensions_Entry : Ty := .sequence false 0 .nil
/-- examples/tests/13-ngap.rs:8192-8201 -/
def DataForwardingResponseERABListItemIE_Extensions : Ty := .sequenceOf (some 1) (some 65535) false DataForwardingResponseERABListItemIE_Extensions_Entry
/-- examples/tests/13-ngap.rs:1411-1413 -/
def E_RAB_ID : Ty := .integer .u8 (some 0) (some 15) true
/-- examples/tests/13-ngap.rs:1321-1328 -/
def DataForwardingResponseERABListItem : Ty := .sequence true 1 (.required false E_RAB_ID (.required false UPTransportLayerInformation (.optional 0 DataForwardingResponseERABListItemIE_Extensions .nil)))
/-- examples/tests/13-ngap.rs:1312-1319 -/
def DataForwardingResponseERABList : Ty := .sequenceOf (some 1) (some 256) false DataForwardingResponseERABListItem
/-- examples/tests/13-ngap.rs:8203-8212 -/
def DeactivateTraceProtocolIEs_EntryValue : Ty := .openType (.cons 10 false AMF_UE_NGAP_ID (.cons 44 false NGRANTraceID (.cons 85 false RAN_UE_NGAP_ID .nil)))
/-- examples/tests/13-ngap.rs:8214-8221 -/
def DeactivateTraceProtocolIEs_Entry : Ty := .sequence false 0 (.required true ProtocolIE_ID (.required false Criticality (.required false DeactivateTraceProtocolIEs_EntryValue .nil)))
/-- examples/tests/13-ngap.rs:8223-8230 -/
def DeactivateTraceProtocolIEs : Ty := .sequenceOf (some 0) (some 65535) false DeactivateTraceProtocolIEs_Entry
/-- examples/tests/13-ngap.rs:1330-1334 -/
def DeactivateTrace : Ty := .sequence true 0 (.required false DeactivateTraceProtocolIEs .nil)
/-- examples/tests/13-ngap.rs:1336-1338 -/
def DelayCritical : Ty := .enumerated .u8 (some 0) (some 1) true
/-- examples/tests/13-ngap.rs:1344-1346 -/
def DirectForwardingPathAvailability : Ty := .enumerated .u8 (some 0) (some 0) true
/-- examples/tests/13-ngap.rs:6184-6186 -/
def UECapabilityInfoRequest : Ty := .enumerated .u8 (some 0) (some 0) true
/-- examples/tests/13-ngap.rs:14615-14617 -/
def UEAggregateMaximumBitRateIE_Extensions_Entry : Ty := .sequence false 0 .nil
/-- examples/tests/13-ngap.rs:14619-14628 -/
def UEAggregateMaximumBitRateIE_Extensions : Ty := .sequenceOf (some 1) (some 65535) false UEAggregateMaximumBitRateIE_Extensions_Entry
/-- examples/tests/13-ngap.rs:6175-6182 -/
def UEAggregateMaximumBitRate : Ty := .sequence true 1 (.required false BitRate (.required false BitRate (.optional 0 UEAggregateMaximumBitRateIE_Extensions .nil)))
/-- examples/tests/13-ngap.rs:5378-5380 -/
def SRVCCOperationPossible : Ty := .enumerated .u8 (some 0) (some 1) true
/-- examples/tests/13-ngap.rs:4999-5001 -/
def RANPagingPriority : Ty := .integer .u16 (some 1) (some 256) false
/-- examples/tests/13-ngap.rs:2937-2939 -/
def NAS_PDU : Ty := .octetstring none none false
/-- examples/tests/13-ngap.rs:10754-10756 -/
def NPN_MobilityInformationchoice_Extensions : Ty := .sequence false 0 .nil
/-- examples/tests/13-ngap.rs:12434-12436 -/
def PNI_NPN_MobilityInformationIE_Extensions_Entry : Ty := .sequence false 0 .nil
/-- examples/tests/13-ngap.rs:12438-12447 -/
def PNI_NPN_MobilityInformationIE_Extensions : Ty := .sequenceOf (some 1) (some 65535) false PNI_NPN_MobilityInformationIE_Extensions_Entry
/-- examples/tests/13-ngap.rs:4351-4357 -/
def PNI_NPN_MobilityInformation : Ty := .sequence true 1 (.required false Allowed_PNI_NPN_List (.optional 0 PNI_NPN_MobilityInformationIE_Extensions .nil))
/-- examples/tests/13-ngap.rs:13699-13701 -/
def SNPN_MobilityInformationIE_Extensions_Entry : Ty := .sequence false 0 .nil
/-- examples/tests/13-ngap.rs:13703-13712 -/
def SNPN_MobilityInformationIE_Extensions : Ty := .sequenceOf (some 1) (some 65535) false SNPN_MobilityInformationIE_Extensions_Entry
/-- examples/tests/13-ngap.rs:5320-5326 -/
def SNPN_MobilityInformation : Ty := .sequence true 1 (.required false NID (.optional 0 SNPN_MobilityInformationIE_Extensions .nil))
/-- examples/tests/13-ngap.rs:3112-3121 -/
def NPN_MobilityInformation : Ty := .choice 0 2 false (.cons 0 false SNPN_MobilityInformation (.cons 1 false PNI_NPN_MobilityInformation (.cons 2 false NPN_MobilityInformationchoice_Extensions .nil)))
/-- examples/tests/13-ngap.rs:10487-10498 -/
def MobilityRestrictionListIE_Extensions_EntryExtensionValue : Ty := .openType (.cons 160 false CNTypeRestrictionsForEquivalent (.cons 161 false CNTypeRestrictionsForServing (.cons 150 false PLMNIdentity (.cons 261 false NPN_MobilityInformation .nil))))
/-- examples/tests/13-ngap.rs:10500-10507 -/
def MobilityRestrictionListIE_Extensions_Entry : Ty := .sequence false 0 (.required true ProtocolExtensionID (.required false Criticality (.required false MobilityRestrictionListIE_Extensions_EntryExtensionValue .nil)))
/-- examples/tests/13-ngap.rs:10509-10518 -/
def MobilityRestrictionListIE_Extensions : Ty := .sequenceOf (some 1) (some 65535) false MobilityRestrictionListIE_Extensions_Entry
/-- examples/tests/13-ngap.rs:13985-13987 -/
def ServiceAreaInformation_ItemIE_Extensions_Entry : Ty := .sequence false 0 .nil
/-- examples/tests/13-ngap.rs:13989-13998 -/
def ServiceAreaInformation_ItemIE_Extensions : Ty := .sequenceOf (some 1) (some 65535) false ServiceAreaInformation_ItemIE_Extensions_Entry
/-- examples/tests/13-ngap.rs:3294-3296 -/
def NotAllowedTACs : Ty := .sequenceOf (some 1) (some 16) false TAC
/-- examples/tests/13-ngap.rs:5536-5546 -/
def ServiceAreaInformation_Item : Ty := .sequence true 3 (.required false PLMNIdentity (.optional 0 AllowedTACs (.optional 1 NotAllowedTACs (.optional 2 ServiceAreaInformation_ItemIE_Extensions .nil))))
/-- examples/tests/13-ngap.rs:5532-5534 -/
def ServiceAreaInformation : Ty := .sequenceOf (some 1) (some 16) false ServiceAreaInformation_Item
/-- examples/tests/13-ngap.rs:8858-8860 -/
def ForbiddenAreaInformation_ItemIE_Extensions_Entry : Ty := .sequence false 0 .nil
/-- examples/tests/13-ngap.rs:8862-8871 -/
def ForbiddenAreaInformation_ItemIE_Extensions : Ty := .sequenceOf (some 1) (some 65535) false ForbiddenAreaInformation_ItemIE_Extensions_Entry
/-- examples/tests/13-ngap.rs:1880-1887 -/
def ForbiddenTACs : Ty := .sequenceOf (some 1) (some 4096) false TAC
/-- examples/tests/13-ngap.rs:1871-1878 -/
def ForbiddenAreaInformation_Item : Ty := .sequence true 1 (.required false PLMNIdentity (.required false ForbiddenTACs (.optional 0 ForbiddenAreaInformation_ItemIE_Extensions .nil)))
/-- examples/tests/13-ngap.rs:1867-1869 -/
def ForbiddenAreaInformation : Ty := .sequenceOf (some 1) (some 16) false ForbiddenAreaInformation_Item
/-- examples/tests/13-ngap.rs:8804-8806 -/
def ExtendedRATRestrictionInformationIE_Extensions_Entry : Ty := .sequence false 0 .nil
/-- examples/tests/13-ngap.rs:8808-8817 -/
def ExtendedRATRestrictionInformationIE_Extensions : Ty := .sequenceOf (some 1) (some 65535) false ExtendedRATRestrictionInformationIE_Extensions_Entry
/-- examples/tests/13-ngap.rs:8800-8802 -/
def BIT_STRING_25 : Ty := .bitstring (some 8) (some 8) true
/-- examples/tests/13-ngap.rs:8796-8798 -/
def BIT_STRING_24 : Ty := .bitstring (some 8) (some 8) true
/-- examples/tests/13-ngap.rs:1807-1814 -/
def ExtendedRATRestrictionInformation : Ty := .sequence true 1 (.required false BIT_STRING_24 (.required false BIT_STRING_25 (.optional 0 ExtendedRATRestrictionInformationIE_Extensions .nil)))
/-- examples/tests/13-ngap.rs:13457-13462 -/
def RATRestrictions_ItemIE_Extensions_EntryExtensionValue : Ty := .openType (.cons 180 false ExtendedRATRestrictionInformation .nil)
/-- examples/tests/13-ngap.rs:13464-13471 -/
def RATRestrictions_ItemIE_Extensions_Entry : Ty := .sequence false 0 (.required true ProtocolExtensionID (.required false Criticality (.required false RATRestrictions_ItemIE_Extensions_EntryExtensionValue .nil)))
/-- examples/tests/13-ngap.rs:13473-13480 -/
def RATRestrictions_ItemIE_Extensions : Ty := .sequenceOf (some 1) (some 65535) false RATRestrictions_ItemIE_Extensions_Entry
/-- examples/tests/13-ngap.rs:5019-5021 -/
def RATRestrictionInformation : Ty := .bitstring (some 8) (some 8) true
/-- examples/tests/13-ngap.rs:5027-5034 -/
def RATRestrictions_Item : Ty := .sequence true 1 (.required false PLMNIdentity (.required false RATRestrictionInformation (.optional 0 RATRestrictions_ItemIE_Extensions .nil)))
/-- examples/tests/13-ngap.rs:5023-5025 -/
def RATRestrictions : Ty := .sequenceOf (some 1) (some 16) false RATRestrictions_Item
/-- examples/tests/13-ngap.rs:1663-1665 -/
def EquivalentPLMNs : Ty := .sequenceOf (some 1) (some 15) false PLMNIdentity
/-- examples/tests/13-ngap.rs:2912-2926 -/
def MobilityRestrictionList : Ty := .sequence true 5 (.required false PLMNIdentity (.optional 0 EquivalentPLMNs (.optional 1 RATRestrictions (.optional 2 ForbiddenAreaInformation (.optional 3 ServiceAreaInformation (.optional 4 MobilityRestrictionListIE_Extensions .nil))))))
/-- examples/tests/13-ngap.rs:2281-2283 -/
def IndexToRFSP : Ty := .integer .u16 (some 1) (some 256) true
/-- examples/tests/13-ngap.rs:1788-1790 -/
def Extended_ConnectedTime : Ty := .integer .u8 (some 0) (some 255) false
/-- examples/tests/13-ngap.rs:8232-8271 -/
def DownlinkNASTransportProtocolIEs_EntryValue : Ty := .openType (.cons 10 false AMF_UE_NGAP_ID (.cons 0 false AllowedNSSAI (.cons 222 false CEmodeBrestricted (.cons 226 false EndIndication (.cons 205 false Enhanced_CoverageRestriction (.cons 206 false Extended_ConnectedTime (.cons 31 false IndexToRFSP (.cons 36 false MobilityRestrictionList (.cons 38 false NAS_PDU (.cons 48 false AMFName (.cons 85 false RAN_UE_NGAP_ID (.cons 83 false RANPagingPriority (.cons 177 false SRVCCOperationPossible (.cons 209 false UE_DifferentiationInfo (.cons 110 false UEAggregateMaximumBitRate (.cons 228 false UECapabilityInfoRequest (.cons 117 false UERadioCapability (.cons 264 false UERadioCapabilityID .nil))))))))))))))))))
/-- examples/tests/13-ngap.rs:8273-8280 -/
def DownlinkNASTransportProtocolIEs_Entry : Ty := .sequence false 0 (.required true ProtocolIE_ID (.required false Criticality (.required false DownlinkNASTransportProtocolIEs_EntryValue .nil)))
/-- examples/tests/13-ngap.rs:8282-8289 -/
def DownlinkNASTransportProtocolIEs : Ty := .sequenceOf (some 0) (some 65535) false DownlinkNASTransportProtocolIEs_Entry
/-- examples/tests/13-ngap.rs:1351-1355 -/
def DownlinkNASTransport : Ty := .sequence true 0 (.required false DownlinkNASTransportProtocolIEs .nil)
/-- examples/tests/13-ngap.rs:5298-5300 -/
def RoutingID : Ty := .octetstring none none false
/-- examples/tests/13-ngap.rs:3209-3211 -/
def NRPPa_PDU : Ty := .octetstring none none false
/-- examples/tests/13-ngap.rs:8291-8298 -/
def DownlinkNonUEAssociatedNRPPaTransportProtocolIEs_EntryValue : Ty := .openType (.cons 46 false NRPPa_PDU (.cons 89 false RoutingID .nil))
/-- examples/tests/13-ngap.rs:8300-8307 -/
def DownlinkNonUEAssociatedNRPPaTransportProtocolIEs_Entry : Ty := .sequence false 0 (.required true ProtocolIE_ID (.required false Criticality (.required false DownlinkNonUEAssociatedNRPPaTransportProtocolIEs_EntryValue .nil)))
/-- examples/tests/13-ngap.rs:8309-8318 -/
def DownlinkNonUEAssociatedNRPPaTransportProtocolIEs : Ty := .sequenceOf (some 0) (some 65535) false DownlinkNonUEAssociatedNRPPaTransportProtocolIEs_Entry
/-- examples/tests/13-ngap.rs:1357-1361 -/
def DownlinkNonUEAssociatedNRPPaTransport : Ty := .sequence true 0 (.required false DownlinkNonUEAssociatedNRPPaTransportProtocolIEs .nil)
/-- examples/tests/13-ngap.rs:13714-13716 -/
def SONConfigurationTransferIE_Extensions_Entry : Ty := .sequence false 0 .nil
/-- examples/tests/13-ngap.rs:13718-13727 -/
def SONConfigurationTransferIE_Extensions : Ty := .sequenceOf (some 1) (some 65535) false SONConfigurationTransferIE_Extensions_Entry
/-- examples/tests/13-ngap.rs:16091-16093 -/
def XnTNLConfigurationInfoIE_Extensions_Entry : Ty := .sequence false 0 .nil
/-- examples/tests/13-ngap.rs:16095-16102 -/
def XnTNLConfigurationInfoIE_Extensions : Ty := .sequenceOf (some 1) (some 65535) false XnTNLConfigurationInfoIE_Extensions_Entry
/-- examples/tests/13-ngap.rs:5312-5314 -/
def SCTP_TLAs : Ty := .sequenceOf (some 1) (some 2) false TransportLayerAddress
/-- examples/tests/13-ngap.rs:16066-16071 -/
def XnExtTLA_ItemIE_Extensions_EntryExtensionValue : Ty := .openType (.cons 173 false SCTP_TLAs .nil)
/-- examples/tests/13-ngap.rs:16073-16080 -/
def XnExtTLA_ItemIE_Extensions_Entry : Ty := .sequence false 0 (.required true ProtocolExtensionID (.required false Criticality (.required false XnExtTLA_ItemIE_Extensions_EntryExtensionValue .nil)))
/-- examples/tests/13-ngap.rs:16082-16089 -/
def XnExtTLA_ItemIE_Extensions : Ty := .sequenceOf (some 1) (some 65535) false XnExtTLA_ItemIE_Extensions_Entry
/-- examples/tests/13-ngap.rs:6844-6846 -/
def XnGTP_TLAs : Ty := .sequenceOf (some 1) (some 16) false TransportLayerAddress
/-- examples/tests/13-ngap.rs:6829-6838 -/
def XnExtTLA_Item : Ty := .sequence true 3 (.optional 0 TransportLayerAddress (.optional 1 XnGTP_TLAs (.optional 2 XnExtTLA_ItemIE_Extensions .nil)))
/-- examples/tests/13-ngap.rs:6840-6842 -/
def XnExtTLAs : Ty := .sequenceOf (some 1) (some 16) false XnExtTLA_Item
/-- examples/tests/13-ngap.rs:6848-6850 -/
def XnTLAs : Ty := .sequenceOf (some 1) (some 2) false TransportLayerAddress
/-- examples/tests/13-ngap.rs:6852-6860 -/
def XnTNLConfigurationInfo : Ty := .sequence true 2 (.required false XnTLAs (.optional 0 XnExtTLAs (.optional 1 XnTNLConfigurationInfoIE_Extensions .nil)))
/-- examples/tests/13-ngap.rs:13758-13760 -/
def SONInformationReportchoice_Extensions : Ty := .sequence false 0 .nil
/-- examples/tests/13-ngap.rs:9095-9097 -/
def HOReportIE_Extensions_Entry : Ty := .sequence false 0 .nil
/-- examples/tests/13-ngap.rs:9099-9106 -/
def HOReportIE_Extensions : Ty := .sequenceOf (some 1) (some 65535) false HOReportIE_Extensions_Entry
/-- examples/tests/13-ngap.rs:15177-15179 -/
def UERLFReportContainerchoice_Extensions : Ty := .sequence false 0 .nil
/-- examples/tests/13-ngap.rs:2469-2471 -/
def LTEUERLFReportContainer : Ty := .octetstring none none false
/-- examples/tests/13-ngap.rs:3213-3215 -/
def NRUERLFReportContainer : Ty := .octetstring none none false
/-- examples/tests/13-ngap.rs:6356-6365 -/
def UERLFReportContainer : Ty := .choice 0 2 false (.cons 0 false NRUERLFReportContainer (.cons 1 false LTEUERLFReportContainer (.cons 2 false UERLFReportContainerchoice_Extensions .nil)))
/-- examples/tests/13-ngap.rs:2908-2910 -/
def MobilityInformation : Ty := .bitstring (some 16) (some 16) false
/-- examples/tests/13-ngap.rs:9091-9093 -/
def BIT_STRING_28 : Ty := .bitstring (some 16) (some 16) false
/-- examples/tests/13-ngap.rs:9082-9084 -/
def ENUMERATED_27 : Ty := .enumerated .u8 (some 0) (some 2) true
/-- examples/tests/13-ngap.rs:2067-2086 -/
def HOReport : Ty := .sequence true 6 (.required false ENUMERATED_27 (.required false Cause (.required false NGRAN_CGI (.required false NGRAN_CGI (.optional 0 NGRAN_CGI (.optional 1 BIT_STRING_28 (.optional 2 EUTRA_CGI (.optional 3 MobilityInformation (.optional 4 UERLFReportContainer (.optional 5 HOReportIE_Extensions .nil))))))))))
/-- examples/tests/13-ngap.rs:8819-8821 -/
def FailureIndicationIE_Extensions_Entry : Ty := .sequence false 0 .nil
/-- examples/tests/13-ngap.rs:8823-8830 -/
def FailureIndicationIE_Extensions : Ty := .sequenceOf (some 1) (some 65535) false FailureIndicationIE_Extensions_Entry
/-- examples/tests/13-ngap.rs:1833-1839 -/
def FailureIndication : Ty := .sequence true 1 (.required false UERLFReportContainer (.optional 0 FailureIndicationIE_Extensions .nil))
/-- examples/tests/13-ngap.rs:5360-5369 -/
def SONInformationReport : Ty := .choice 0 2 false (.cons 0 false FailureIndication (.cons 1 false HOReport (.cons 2 false SONInformationReportchoice_Extensions .nil)))
/-- examples/tests/13-ngap.rs:13729-13734 -/
def SONInformationchoice_ExtensionsValue : Ty := .openType (.cons 252 false SONInformationReport .nil)
/-- examples/tests/13-ngap.rs:13736-13743 -/
def SONInformationchoice_Extensions : Ty := .sequence false 0 (.required true ProtocolIE_ID (.required false Criticality (.required false SONInformationchoice_ExtensionsValue .nil)))
/-- examples/tests/13-ngap.rs:13745-13747 -/
def SONInformationReplyIE_Extensions_Entry : Ty := .sequence false 0 .nil
/-- examples/tests/13-ngap.rs:13749-13756 -/
def SONInformationReplyIE_Extensions : Ty := .sequenceOf (some 1) (some 65535) false SONInformationReplyIE_Extensions_Entry
/-- examples/tests/13-ngap.rs:5351-5358 -/
def SONInformationReply : Ty := .sequence true 2 (.optional 0 XnTNLConfigurationInfo (.optional 1 SONInformationReplyIE_Extensions .nil))
/-- examples/tests/13-ngap.rs:5371-5373 -/
def SONInformationRequest : Ty := .enumerated .u8 (some 0) (some 0) true
/-- examples/tests/13-ngap.rs:5340-5349 -/
def SONInformation : Ty := .choice 0 2 false (.cons 0 false SONInformationRequest (.cons 1 false SONInformationReply (.cons 2 false SONInformationchoice_Extensions .nil)))
/-- examples/tests/13-ngap.rs:14056-14058 -/
def SourceRANNodeIDIE_Extensions_Entry : Ty := .sequence false 0 .nil
/-- examples/tests/13-ngap.rs:14060-14067 -/
def SourceRANNodeIDIE_Extensions : Ty := .sequenceOf (some 1) (some 65535) false SourceRANNodeIDIE_Extensions_Entry
/-- examples/tests/13-ngap.rs:5610-5617 -/
def SourceRANNodeID : Ty := .sequence true 1 (.required false GlobalRANNodeID (.required false TAI (.optional 0 SourceRANNodeIDIE_Extensions .nil)))
/-- examples/tests/13-ngap.rs:14393-14395 -/
def TargetRANNodeIDIE_Extensions_Entry : Ty := .sequence false 0 .nil
/-- examples/tests/13-ngap.rs:14397-14404 -/
def TargetRANNodeIDIE_Extensions : Ty := .sequenceOf (some 1) (some 65535) false TargetRANNodeIDIE_Extensions_Entry
/-- examples/tests/13-ngap.rs:5936-5943 -/
def TargetRANNodeID : Ty := .sequence true 1 (.required false GlobalRANNodeID (.required false TAI (.optional 0 TargetRANNodeIDIE_Extensions .nil)))
/-- examples/tests/13-ngap.rs:5328-5338 -/
def SONConfigurationTransfer : Ty := .sequence true 2 (.required false TargetRANNodeID (.required false SourceRANNodeID (.required false SONInformation (.optional 0 XnTNLConfigurationInfo (.optional 1 SONConfigurationTransferIE_Extensions .nil)))))
/-- examples/tests/13-ngap.rs:10036-10038 -/
def IntersystemSONConfigurationTransferIE_Extensions_Entry : Ty := .sequence false 0 .nil
/-- examples/tests/13-ngap.rs:10040-10049 -/
def IntersystemSONConfigurationTransferIE_Extensions : Ty := .sequenceOf (some 1) (some 65535) false IntersystemSONConfigurationTransferIE_Extensions_Entry
/-- examples/tests/13-ngap.rs:10051-10053 -/
def IntersystemSONInformationchoice_Extensions : Ty := .sequence false 0 .nil
/-- examples/tests/13-ngap.rs:10055-10057 -/
def IntersystemSONInformationReportchoice_Extensions : Ty := .sequence false 0 .nil
/-- examples/tests/13-ngap.rs:10004-10006 -/
def InterSystemFailureIndicationIE_Extensions_Entry : Ty := .sequence false 0 .nil
/-- examples/tests/13-ngap.rs:10008-10017 -/
def InterSystemFailureIndicationIE_Extensions : Ty := .sequenceOf (some 1) (some 65535) false InterSystemFailureIndicationIE_Extensions_Entry
/-- examples/tests/13-ngap.rs:2348-2355 -/
def InterSystemFailureIndication : Ty := .sequence true 2 (.optional 0 UERLFReportContainer (.optional 1 InterSystemFailureIndicationIE_Extensions .nil))
/-- examples/tests/13-ngap.rs:10019-10021 -/
def InterSystemHOReportIE_Extensions_Entry : Ty := .sequence false 0 .nil
/-- examples/tests/13-ngap.rs:10023-10030 -/
def InterSystemHOReportIE_Extensions : Ty := .sequenceOf (some 1) (some 65535) false InterSystemHOReportIE_Extensions_Entry
/-- examples/tests/13-ngap.rs:10032-10034 -/
def InterSystemHandoverReportTypechoice_Extensions : Ty := .sequence false 0 .nil
/-- examples/tests/13-ngap.rs:10099-10101 -/
def IntersystemUnnecessaryHOIE_Extensions_Entry : Ty := .sequence false 0 .nil
/-- examples/tests/13-ngap.rs:10103-10112 -/
def IntersystemUnnecessaryHOIE_Extensions : Ty := .sequenceOf (some 1) (some 65535) false IntersystemUnnecessaryHOIE_Extensions_Entry
/-- examples/tests/13-ngap.rs:10091-10093 -/
def ENUMERATED_29 : Ty := .enumerated .u8 (some 0) (some 1) true
/-- examples/tests/13-ngap.rs:2438-2447 -/
def IntersystemUnnecessaryHO : Ty := .sequence true 1 (.required false NGRAN_CGI (.required false EUTRA_CGI (.required false ENUMERATED_29 (.required false CandidateCellList (.optional 0 IntersystemUnnecessaryHOIE_Extensions .nil)))))
/-- examples/tests/13-ngap.rs:14432-14434 -/
def TooearlyIntersystemHOIE_Extensions_Entry : Ty := .sequence false 0 .nil
/-- examples/tests/13-ngap.rs:14436-14443 -/
def TooearlyIntersystemHOIE_Extensions : Ty := .sequenceOf (some 1) (some 65535) false TooearlyIntersystemHOIE_Extensions_Entry
/-- examples/tests/13-ngap.rs:6038-6047 -/
def TooearlyIntersystemHO : Ty := .sequence true 2 (.required false EUTRA_CGI (.required false NGRAN_CGI (.optional 0 UERLFReportContainer (.optional 1 TooearlyIntersystemHOIE_Extensions .nil))))
/-- examples/tests/13-ngap.rs:2365-2374 -/
def InterSystemHandoverReportType : Ty := .choice 0 2 false (.cons 0 false TooearlyIntersystemHO (.cons 1 false IntersystemUnnecessaryHO (.cons 2 false InterSystemHandoverReportTypechoice_Extensions .nil)))
/-- examples/tests/13-ngap.rs:2357-2363 -/
def InterSystemHOReport : Ty := .sequence true 1 (.required false InterSystemHandoverReportType (.optional 0 InterSystemHOReportIE_Extensions .nil))
/-- examples/tests/13-ngap.rs:2398-2407 -/
def IntersystemSONInformationReport : Ty := .choice 0 2 false (.cons 0 false InterSystemHOReport (.cons 1 false InterSystemFailureIndication (.cons 2 false IntersystemSONInformationReportchoice_Extensions .nil)))
/-- examples/tests/13-ngap.rs:2389-2396 -/
def IntersystemSONInformation : Ty := .choice 0 1 false (.cons 0 false IntersystemSONInformationReport (.cons 1 false IntersystemSONInformationchoice_Extensions .nil))
/-- examples/tests/13-ngap.rs:10074-10076 -/
def IntersystemSONTransferTypechoice_Extensions : Ty := .sequence false 0 .nil
/-- examples/tests/13-ngap.rs:8886-8888 -/
def FromNGRANtoEUTRANIE_Extensions_Entry : Ty := .sequence false 0 .nil
/-- examples/tests/13-ngap.rs:8890-8897 -/
def FromNGRANtoEUTRANIE_Extensions : Ty := .sequenceOf (some 1) (some 65535) false FromNGRANtoEUTRANIE_Extensions_Entry
/-- examples/tests/13-ngap.rs:10078-10080 -/
def IntersystemSONeNBIDIE_Extensions_Entry : Ty := .sequence false 0 .nil
/-- examples/tests/13-ngap.rs:10082-10089 -/
def IntersystemSONeNBIDIE_Extensions : Ty := .sequenceOf (some 1) (some 65535) false IntersystemSONeNBIDIE_Extensions_Entry
/-- examples/tests/13-ngap.rs:8535-8537 -/
def EPS_TAIIE_Extensions_Entry : Ty := .sequence false 0 .nil
/-- examples/tests/13-ngap.rs:8539-8546 -/
def EPS_TAIIE_Extensions : Ty := .sequenceOf (some 1) (some 65535) false EPS_TAIIE_Extensions_Entry
/-- examples/tests/13-ngap.rs:1460-1462 -/
def EPS_TAC : Ty := .octetstring (some 2) (some 2) false
/-- examples/tests/13-ngap.rs:1464-1471 -/
def EPS_TAI : Ty := .sequence true 1 (.required false PLMNIdentity (.required false EPS_TAC (.optional 0 EPS_TAIIE_Extensions .nil)))
/-- examples/tests/13-ngap.rs:8958-8960 -/
def GlobalENB_IDIE_Extensions_Entry : Ty := .sequence false 0 .nil
/-- examples/tests/13-ngap.rs:8962-8969 -/
def GlobalENB_IDIE_Extensions : Ty := .sequenceOf (some 1) (some 65535) false GlobalENB_IDIE_Extensions_Entry
/-- examples/tests/13-ngap.rs:8531-8533 -/
def ENB_IDchoice_Extensions : Ty := .sequence false 0 .nil
/-- examples/tests/13-ngap.rs:8527-8529 -/
def BIT_STRING_21 : Ty := .bitstring (some 21) (some 21) false
/-- examples/tests/13-ngap.rs:8523-8525 -/
def BIT_STRING_20 : Ty := .bitstring (some 18) (some 18) false
/-- examples/tests/13-ngap.rs:8519-8521 -/
def BIT_STRING_19 : Ty := .bitstring (some 28) (some 28) false
/-- examples/tests/13-ngap.rs:8515-8517 -/
def BIT_STRING_18 : Ty := .bitstring (some 20) (some 20) false
/-- examples/tests/13-ngap.rs:1445-1458 -/
def ENB_ID : Ty := .choice 0 4 false (.cons 0 false BIT_STRING_18 (.cons 1 false BIT_STRING_19 (.cons 2 false BIT_STRING_20 (.cons 3 false BIT_STRING_21 (.cons 4 false ENB_IDchoice_Extensions .nil)))))
/-- examples/tests/13-ngap.rs:1973-1980 -/
def GlobalENB_ID : Ty := .sequence true 1 (.required false PLMNIdentity (.required false ENB_ID (.optional 0 GlobalENB_IDIE_Extensions .nil)))
/-- examples/tests/13-ngap.rs:2429-2436 -/
def IntersystemSONeNBID : Ty := .sequence true 1 (.required false GlobalENB_ID (.required false EPS_TAI (.optional 0 IntersystemSONeNBIDIE_Extensions .nil)))
/-- examples/tests/13-ngap.rs:10059-10061 -/
def IntersystemSONNGRANnodeIDIE_Extensions_Entry : Ty := .sequence false 0 .nil
/-- examples/tests/13-ngap.rs:10063-10072 -/
def IntersystemSONNGRANnodeIDIE_Extensions : Ty := .sequenceOf (some 1) (some 65535) false IntersystemSONNGRANnodeIDIE_Extensions_Entry
/-- examples/tests/13-ngap.rs:2409-2416 -/
def IntersystemSONNGRANnodeID : Ty := .sequence true 1 (.required false GlobalRANNodeID (.required false TAI (.optional 0 IntersystemSONNGRANnodeIDIE_Extensions .nil)))
/-- examples/tests/13-ngap.rs:1898-1905 -/
def FromNGRANtoEUTRAN : Ty := .sequence false 1 (.required false IntersystemSONNGRANnodeID (.required false IntersystemSONeNBID (.optional 0 FromNGRANtoEUTRANIE_Extensions .nil)))
/-- examples/tests/13-ngap.rs:8873-8875 -/
def FromEUTRANtoNGRANIE_Extensions_Entry : Ty := .sequence false 0 .nil
/-- examples/tests/13-ngap.rs:8877-8884 -/
def FromEUTRANtoNGRANIE_Extensions : Ty := .sequenceOf (some 1) (some 65535) false FromEUTRANtoNGRANIE_Extensions_Entry
/-- examples/tests/13-ngap.rs:1889-1896 -/
def FromEUTRANtoNGRAN : Ty := .sequence false 1 (.required false IntersystemSONeNBID (.required false IntersystemSONNGRANnodeID (.optional 0 FromEUTRANtoNGRANIE_Extensions .nil)))
/-- examples/tests/13-ngap.rs:2418-2427 -/
def IntersystemSONTransferType : Ty := .choice 0 2 false (.cons 0 false FromEUTRANtoNGRAN (.cons 1 false FromNGRANtoEUTRAN (.cons 2 false IntersystemSONTransferTypechoice_Extensions .nil)))
/-- examples/tests/13-ngap.rs:2380-2387 -/
def IntersystemSONConfigurationTransfer : Ty := .sequence true 1 (.required false IntersystemSONTransferType (.required false IntersystemSONInformation (.optional 0 IntersystemSONConfigurationTransferIE_Extensions .nil)))
/-- examples/tests/13-ngap.rs:1441-1443 -/
def EN_DCSONConfigurationTransfer : Ty := .octetstring none none false
/-- examples/tests/13-ngap.rs:8320-8329 -/
def DownlinkRANConfigurationTransferProtocolIEs_EntryValue : Ty := .openType (.cons 157 false EN_DCSONConfigurationTransfer (.cons 250 false IntersystemSONConfigurationTransfer (.cons 98 false SONConfigurationTransfer .nil)))
/-- examples/tests/13-ngap.rs:8331-8338 -/
def DownlinkRANConfigurationTransferProtocolIEs_Entry : Ty := .sequence false 0 (.required true ProtocolIE_ID (.required false Criticality (.required false DownlinkRANConfigurationTransferProtocolIEs_EntryValue .nil)))
/-- examples/tests/13-ngap.rs:8340-8349 -/
def DownlinkRANConfigurationTransferProtocolIEs : Ty := .sequenceOf (some 0) (some 65535) false DownlinkRANConfigurationTransferProtocolIEs_Entry
/-- examples/tests/13-ngap.rs:1363-1367 -/
def DownlinkRANConfigurationTransfer : Ty := .sequence true 0 (.required false DownlinkRANConfigurationTransferProtocolIEs .nil)
/-- examples/tests/13-ngap.rs:8561-8563 -/
def EarlyStatusTransfer_TransparentContainerIE_Extensions_Entry : Ty := .sequence false 0 .nil
/-- examples/tests/13-ngap.rs:8565-8574 -/
def EarlyStatusTransfer_TransparentContainerIE_Extensions : Ty := .sequenceOf (some 1) (some 65535) false EarlyStatusTransfer_TransparentContainerIE_Extensions_Entry
/-- examples/tests/13-ngap.rs:12950-12952 -/
def ProcedureStageChoicechoice_Extensions : Ty := .sequence false 0 .nil
/-- examples/tests/13-ngap.rs:8832-8834 -/
def FirstDLCountIE_Extension_Entry : Ty := .sequence false 0 .nil
/-- examples/tests/13-ngap.rs:8836-8843 -/
def FirstDLCountIE_Extension : Ty := .sequenceOf (some 1) (some 65535) false FirstDLCountIE_Extension_Entry
/-- examples/tests/13-ngap.rs:1841-1847 -/
def FirstDLCount : Ty := .sequence true 1 (.required false DRBsSubjectToEarlyStatusTransfer_List (.optional 0 FirstDLCountIE_Extension .nil))
/-- examples/tests/13-ngap.rs:4689-4696 -/
def ProcedureStageChoice : Ty := .choice 0 1 false (.cons 0 false FirstDLCount (.cons 1 false ProcedureStageChoicechoice_Extensions .nil))
/-- examples/tests/13-ngap.rs:1512-1518 -/
def EarlyStatusTransfer_TransparentContainer : Ty := .sequence true 1 (.required false ProcedureStageChoice (.optional 0 EarlyStatusTransfer_TransparentContainerIE_Extensions .nil))
/-- examples/tests/13-ngap.rs:8351-8360 -/
def DownlinkRANEarlyStatusTransferProtocolIEs_EntryValue : Ty := .openType (.cons 10 false AMF_UE_NGAP_ID (.cons 268 false EarlyStatusTransfer_TransparentContainer (.cons 85 false RAN_UE_NGAP_ID .nil)))
/-- examples/tests/13-ngap.rs:8362-8369 -/
def DownlinkRANEarlyStatusTransferProtocolIEs_Entry : Ty := .sequence false 0 (.required true ProtocolIE_ID (.required false Criticality (.required false DownlinkRANEarlyStatusTransferProtocolIEs_EntryValue .nil)))
/-- examples/tests/13-ngap.rs:8371-8380 -/
def DownlinkRANEarlyStatusTransferProtocolIEs : Ty := .sequenceOf (some 0) (some 65535) false DownlinkRANEarlyStatusTransferProtocolIEs_Entry
/-- examples/tests/13-ngap.rs:1369-1373 -/
def DownlinkRANEarlyStatusTransfer : Ty := .sequence true 0 (.required false DownlinkRANEarlyStatusTransferProtocolIEs .nil)
/-- examples/tests/13-ngap.rs:13442-13444 -/
def RANStatusTransfer_TransparentContainerIE_Extensions_Entry : Ty := .sequence false 0 .nil
/-- examples/tests/13-ngap.rs:13446-13455 -/
def RANStatusTransfer_TransparentContainerIE_Extensions : Ty := .sequenceOf (some 1) (some 65535) false RANStatusTransfer_TransparentContainerIE_Extensions_Entry
/-- examples/tests/13-ngap.rs:5003-5009 -/
def RANStatusTransfer_TransparentContainer : Ty := .sequence true 1 (.required false DRBsSubjectToStatusTransferList (.optional 0 RANStatusTransfer_TransparentContainerIE_Extensions .nil))
/-- examples/tests/13-ngap.rs:8382-8391 -/
def DownlinkRANStatusTransferProtocolIEs_EntryValue : Ty := .openType (.cons 10 false AMF_UE_NGAP_ID (.cons 85 false RAN_UE_NGAP_ID (.cons 84 false RANStatusTransfer_TransparentContainer .nil)))
/-- examples/tests/13-ngap.rs:8393-8400 -/
def DownlinkRANStatusTransferProtocolIEs_Entry : Ty := .sequence false 0 (.required true ProtocolIE_ID (.required false Criticality (.required false DownlinkRANStatusTransferProtocolIEs_EntryValue .nil)))
/-- examples/tests/13-ngap.rs:8402-8411 -/
def DownlinkRANStatusTransferProtocolIEs : Ty := .sequenceOf (some 0) (some 65535) false DownlinkRANStatusTransferProtocolIEs_Entry
/-- examples/tests/13-ngap.rs:1375-1379 -/
def DownlinkRANStatusTransfer : Ty := .sequence true 0 (.required false DownlinkRANStatusTransferProtocolIEs .nil)
/-- examples/tests/13-ngap.rs:13503-13505 -/
def RIMInformationTransferIE_Extensions_Entry : Ty := .sequence false 0 .nil
/-- examples/tests/13-ngap.rs:13507-13514 -/
def RIMInformationTransferIE_Extensions : Ty := .sequenceOf (some 1) (some 65535) false RIMInformationTransferIE_Extensions_Entry
/-- examples/tests/13-ngap.rs:13490-13492 -/
def RIMInformationIE_Extensions_Entry : Ty := .sequence false 0 .nil
/-- examples/tests/13-ngap.rs:13494-13501 -/
def RIMInformationIE_Extensions : Ty := .sequenceOf (some 1) (some 65535) false RIMInformationIE_Extensions_Entry
/-- examples/tests/13-ngap.rs:13482-13484 -/
def ENUMERATED_73 : Ty := .enumerated .u8 (some 0) (some 1) true
/-- examples/tests/13-ngap.rs:1933-1935 -/
def GNBSetID : Ty := .bitstring (some 22) (some 22) false
/-- examples/tests/13-ngap.rs:5040-5047 -/
def RIMInformation : Ty := .sequence true 1 (.required false GNBSetID (.required false ENUMERATED_73 (.optional 0 RIMInformationIE_Extensions .nil)))
/-- examples/tests/13-ngap.rs:5049-5057 -/
def RIMInformationTransfer : Ty := .sequence true 1 (.required false TargetRANNodeID (.required false SourceRANNodeID (.required false RIMInformation (.optional 0 RIMInformationTransferIE_Extensions .nil))))
/-- examples/tests/13-ngap.rs:8413-8418 -/
def DownlinkRIMInformationTransferProtocolIEs_EntryValue : Ty := .openType (.cons 175 false RIMInformationTransfer .nil)
/-- examples/tests/13-ngap.rs:8420-8427 -/
def DownlinkRIMInformationTransferProtocolIEs_Entry : Ty := .sequence false 0 (.required true ProtocolIE_ID (.required false Criticality (.required false DownlinkRIMInformationTransferProtocolIEs_EntryValue .nil)))
/-- examples/tests/13-ngap.rs:8429-8438 -/
def DownlinkRIMInformationTransferProtocolIEs : Ty := .sequenceOf (some 0) (some 65535) false DownlinkRIMInformationTransferProtocolIEs_Entry
/-- examples/tests/13-ngap.rs:1381-1385 -/
def DownlinkRIMInformationTransfer : Ty := .sequence true 0 (.required false DownlinkRIMInformationTransferProtocolIEs .nil)
/-- examples/tests/13-ngap.rs:8440-8451 -/
def DownlinkUEAssociatedNRPPaTransportProtocolIEs_EntryValue : Ty := .openType (.cons 10 false AMF_UE_NGAP_ID (.cons 46 false NRPPa_PDU (.cons 85 false RAN_UE_NGAP_ID (.cons 89 false RoutingID .nil))))
/-- examples/tests/13-ngap.rs:8453-8460 -/
def DownlinkUEAssociatedNRPPaTransportProtocolIEs_Entry : Ty := .sequence false 0 (.required true ProtocolIE_ID (.required false Criticality (.required false DownlinkUEAssociatedNRPPaTransportProtocolIEs_EntryValue .nil)))
/-- examples/tests/13-ngap.rs:8462-8471 -/
def DownlinkUEAssociatedNRPPaTransportProtocolIEs : Ty := .sequenceOf (some 0) (some 65535) false DownlinkUEAssociatedNRPPaTransportProtocolIEs_Entry
/-- examples/tests/13-ngap.rs:1387-1391 -/
def DownlinkUEAssociatedNRPPaTransport : Ty := .sequence true 0 (.required false DownlinkUEAssociatedNRPPaTransportProtocolIEs .nil)
/-- examples/tests/13-ngap.rs:1803-1805 -/
def ExtendedPacketDelayBudget : Ty := .integer .u16 (some 1) (some 65535) true
/-- examples/tests/13-ngap.rs:8473-8482 -/
def Dynamic5QIDescriptorIE_Extensions_EntryExtensionValue : Ty := .openType (.cons 187 false ExtendedPacketDelayBudget (.cons 188 false ExtendedPacketDelayBudget (.cons 189 false ExtendedPacketDelayBudget .nil)))
/-- examples/tests/13-ngap.rs:8484-8491 -/
def Dynamic5QIDescriptorIE_Extensions_Entry : Ty := .sequence false 0 (.required true ProtocolExtensionID (.required false Criticality (.required false Dynamic5QIDescriptorIE_Extensions_EntryExtensionValue .nil)))
/-- examples/tests/13-ngap.rs:8493-8500 -/
def Dynamic5QIDescriptorIE_Extensions : Ty := .sequenceOf (some 1) (some 65535) false Dynamic5QIDescriptorIE_Extensions_Entry
/-- examples/tests/13-ngap.rs:2877-2879 -/
def MaximumDataBurstVolume : Ty := .integer .u16 (some 0) (some 4095) true
/-- examples/tests/13-ngap.rs:1863-1865 -/
def FiveQI : Ty := .integer .u8 (some 0) (some 255) true
/-- examples/tests/13-ngap.rs:4658-4660 -/
def PriorityLevelQos : Ty := .integer .u8 (some 1) (some 127) true
/-- examples/tests/13-ngap.rs:1393-1409 -/
def Dynamic5QIDescriptor : Ty := .sequence true 5 (.required false PriorityLevelQos (.required false PacketDelayBudget (.required false PacketErrorRate (.optional 0 FiveQI (.optional 1 DelayCritical (.optional 2 AveragingWindow (.optional 3 MaximumDataBurstVolume (.optional 4 Dynamic5QIDescriptorIE_Extensions .nil))))))))
/-- examples/tests/13-ngap.rs:8502-8504 -/
def E_RABInformationItemIE_Extensions_Entry : Ty := .sequence false 0 .nil
/-- examples/tests/13-ngap.rs:8506-8513 -/
def E_RABInformationItemIE_Extensions : Ty := .sequenceOf (some 1) (some 65535) false E_RABInformationItemIE_Extensions_Entry
/-- examples/tests/13-ngap.rs:1415-1423 -/
def E_RABInformationItem : Ty := .sequence true 2 (.required false E_RAB_ID (.optional 0 DLForwarding (.optional 1 E_RABInformationItemIE_Extensions .nil)))
/-- examples/tests/13-ngap.rs:1425-1432 -/
def E_RABInformationList : Ty := .sequenceOf (some 1) (some 256) false E_RABInformationItem
/-- examples/tests/13-ngap.rs:1434-1436 -/
def EDT_Session : Ty := .enumerated .u8 (some 0) (some 0) true
/-- examples/tests/13-ngap.rs:1491-1498 -/
def EUTRA_CGIListForWarning : Ty := .sequenceOf (some 1) (some 65535) false EUTRA_CGI
/-- examples/tests/13-ngap.rs:1504-1506 -/
def EUTRAencryptionAlgorithms : Ty := .bitstring (some 16) (some 16) true
/-- examples/tests/13-ngap.rs:1508-1510 -/
def EUTRAintegrityProtectionAlgorithms : Ty := .bitstring (some 16) (some 16) true
/-- examples/tests/13-ngap.rs:1596-1603 -/
def EmergencyAreaIDList : Ty := .sequenceOf (some 1) (some 65535) false EmergencyAreaID
/-- examples/tests/13-ngap.rs:1605-1612 -/
def EmergencyAreaIDListForRestart : Ty := .sequenceOf (some 1) (some 256) false EmergencyAreaID
/-- examples/tests/13-ngap.rs:8636-8638 -/
def EmergencyFallbackIndicatorIE_Extensions_Entry : Ty := .sequence false 0 .nil
/-- examples/tests/13-ngap.rs:8640-8649 -/
def EmergencyFallbackIndicatorIE_Extensions : Ty := .sequenceOf (some 1) (some 65535) false EmergencyFallbackIndicatorIE_Extensions_Entry
/-- examples/tests/13-ngap.rs:1631-1633 -/
def EmergencyServiceTargetCN : Ty := .enumerated .u8 (some 0) (some 1) true
/-- examples/tests/13-ngap.rs:1624-1626 -/
def EmergencyFallbackRequestIndicator : Ty := .enumerated .u8 (some 0) (some 0) true
/-- examples/tests/13-ngap.rs:1614-1622 -/
def EmergencyFallbackIndicator : Ty := .sequence true 2 (.required false EmergencyFallbackRequestIndicator (.optional 0 EmergencyServiceTargetCN (.optional 1 EmergencyFallbackIndicatorIE_Extensions .nil)))
/-- examples/tests/13-ngap.rs:8845-8847 -/
def FiveG_S_TMSIIE_Extensions_Entry : Ty := .sequence false 0 .nil
/-- examples/tests/13-ngap.rs:8849-8856 -/
def FiveG_S_TMSIIE_Extensions : Ty := .sequenceOf (some 1) (some 65535) false FiveG_S_TMSIIE_Extensions_Entry
/-- examples/tests/13-ngap.rs:1859-1861 -/
def FiveG_TMSI : Ty := .octetstring (some 4) (some 4) false
/-- examples/tests/13-ngap.rs:1849-1857 -/
def FiveG_S_TMSI : Ty := .sequence true 1 (.required false AMFSetID (.required false AMFPointer (.required false FiveG_TMSI (.optional 0 FiveG_S_TMSIIE_Extensions .nil))))
/-- examples/tests/13-ngap.rs:8666-8679 -/
def ErrorIndicationProtocolIEs_EntryValue : Ty := .openType (.cons 10 false AMF_UE_NGAP_ID (.cons 15 false Cause (.cons 19 false CriticalityDiagnostics (.cons 26 false FiveG_S_TMSI (.cons 85 false RAN_UE_NGAP_ID .nil)))))
/-- examples/tests/13-ngap.rs:8681-8688 -/
def ErrorIndicationProtocolIEs_Entry : Ty := .sequence false 0 (.required true ProtocolIE_ID (.required false Criticality (.required false ErrorIndicationProtocolIEs_EntryValue .nil)))
/-- examples/tests/13-ngap.rs:8690-8697 -/
def ErrorIndicationProtocolIEs : Ty := .sequenceOf (some 0) (some 65535) false ErrorIndicationProtocolIEs_Entry
/-- examples/tests/13-ngap.rs:1667-1671 -/
def ErrorIndication : Ty := .sequence true 0 (.required false ErrorIndicationProtocolIEs .nil)
/-- examples/tests/13-ngap.rs:8699-8701 -/
def EventL1LoggedMDTConfigIE_Extensions_Entry : Ty := .sequence false 0 .nil
/-- examples/tests/13-ngap.rs:8703-8710 -/
def EventL1LoggedMDTConfigIE_Extensions : Ty := .sequenceOf (some 1) (some 65535) false EventL1LoggedMDTConfigIE_Extensions_Entry
/-- examples/tests/13-ngap.rs:5989-5991 -/
def TimeToTrigger : Ty := .enumerated .u8 (some 0) (some 15) false
/-- examples/tests/13-ngap.rs:2221-2223 -/
def Hysteresis : Ty := .integer .u8 (some 0) (some 30) false
/-- examples/tests/13-ngap.rs:10483-10485 -/
def MeasurementThresholdL1LoggedMDTchoice_Extensions : Ty := .sequence false 0 .nil
/-- examples/tests/13-ngap.rs:5977-5979 -/
def Threshold_RSRQ : Ty := .integer .u8 (some 0) (some 127) false
/-- examples/tests/13-ngap.rs:5973-5975 -/
def Threshold_RSRP : Ty := .integer .u8 (some 0) (some 127) false
/-- examples/tests/13-ngap.rs:2889-2898 -/
def MeasurementThresholdL1LoggedMDT : Ty := .choice 0 2 false (.cons 0 false Threshold_RSRP (.cons 1 false Threshold_RSRQ (.cons 2 false MeasurementThresholdL1LoggedMDTchoice_Extensions .nil)))
/-- examples/tests/13-ngap.rs:1673-1681 -/
def EventL1LoggedMDTConfig : Ty := .sequence true 1 (.required false MeasurementThresholdL1LoggedMDT (.required false Hysteresis (.required false TimeToTrigger (.optional 0 EventL1LoggedMDTConfigIE_Extensions .nil))))
/-- examples/tests/13-ngap.rs:8719-8721 -/
def EventTriggerchoice_Extensions : Ty := .sequence false 0 .nil
/-- examples/tests/13-ngap.rs:8712-8714 -/
def ENUMERATED_22 : Ty := .enumerated .u8 (some 0) (some 0) true
/-- examples/tests/13-ngap.rs:1683-1692 -/
def EventTrigger : Ty := .choice 0 2 false (.cons 0 false ENUMERATED_22 (.cons 1 false EventL1LoggedMDTConfig (.cons 2 false EventTriggerchoice_Extensions .nil)))
/-- examples/tests/13-ngap.rs:1694-1696 -/
def EventType : Ty := .enumerated .u8 (some 0) (some 5) true
/-- examples/tests/13-ngap.rs:8783-8785 -/
def Extended_RANNodeNameIE_Extensions_Entry : Ty := .sequence false 0 .nil
/-- examples/tests/13-ngap.rs:8787-8794 -/
def Extended_RANNodeNameIE_Extensions : Ty := .sequenceOf (some 1) (some 65535) false Extended_RANNodeNameIE_Extensions_Entry
/-- examples/tests/13-ngap.rs:4986-4988 -/
def RANNodeNameUTF8String : Ty := .charstring .utf8 (some 1) (some 150) true
/-- examples/tests/13-ngap.rs:4990-4997 -/
def RANNodeNameVisibleString : Ty := .charstring .visible (some 1) (some 150) true
/-- examples/tests/13-ngap.rs:1792-1801 -/
def Extended_RANNodeName : Ty := .sequence true 3 (.optional 0 RANNodeNameVisibleString (.optional 1 RANNodeNameUTF8String (.optional 2 Extended_RANNodeNameIE_Extensions .nil)))
/-- examples/tests/13-ngap.rs:1816-1818 -/
def ExtendedRNC_ID : Ty := .integer .u16 (some 4096) (some 65535) false
/-- examples/tests/13-ngap.rs:8899-8904 -/
def GBR_QosInformationIE_Extensions_EntryExtensionValue : Ty := .openType (.cons 220 false AlternativeQoSParaSetList .nil)
/-- examples/tests/13-ngap.rs:8906-8913 -/
def GBR_QosInformationIE_Extensions_Entry : Ty := .sequence false 0 (.required true ProtocolExtensionID (.required false Criticality (.required false GBR_QosInformationIE_Extensions_EntryExtensionValue .nil)))
/-- examples/tests/13-ngap.rs:8915-8922 -/
def GBR_QosInformationIE_Extensions : Ty := .sequenceOf (some 1) (some 65535) false GBR_QosInformationIE_Extensions_Entry
/-- examples/tests/13-ngap.rs:4407-4409 -/
def PacketLossRate : Ty := .integer .u16 (some 0) (some 1000) true
/-- examples/tests/13-ngap.rs:3306-3308 -/
def NotificationControl : Ty := .enumerated .u8 (some 0) (some 0) true
/-- examples/tests/13-ngap.rs:1907-1922 -/
def GBR_QosInformation : Ty := .sequence true 4 (.required false BitRate (.required false BitRate (.required false BitRate (.required false BitRate (.optional 0 NotificationControl (.optional 1 PacketLossRate (.optional 2 PacketLossRate (.optional 3 GBR_QosInformationIE_Extensions .nil))))))))
/-- examples/tests/13-ngap.rs:1969-1971 -/
def GlobalCable_ID : Ty := .octetstring none none false
/-- examples/tests/13-ngap.rs:8984-8986 -/
def GlobalLine_IDIE_Extensions_Entry : Ty := .sequence false 0 .nil
/-- examples/tests/13-ngap.rs:8988-8995 -/
def GlobalLine_IDIE_Extensions : Ty := .sequenceOf (some 1) (some 65535) false GlobalLine_IDIE_Extensions_Entry
/-- examples/tests/13-ngap.rs:2541-2543 -/
def LineType : Ty := .enumerated .u8 (some 0) (some 1) true
/-- examples/tests/13-ngap.rs:2001-2003 -/
def GlobalLineIdentity : Ty := .octetstring none none false
/-- examples/tests/13-ngap.rs:1991-1999 -/
def GlobalLine_ID : Ty := .sequence true 2 (.required false GlobalLineIdentity (.optional 0 LineType (.optional 1 GlobalLine_IDIE_Extensions .nil)))
/-- examples/tests/13-ngap.rs:2063-2065 -/
def HFCNode_ID : Ty := .octetstring none none false
/-- examples/tests/13-ngap.rs:9108-9117 -/
def HandoverCancelProtocolIEs_EntryValue : Ty := .openType (.cons 10 false AMF_UE_NGAP_ID (.cons 15 false Cause (.cons 85 false RAN_UE_NGAP_ID .nil)))
/-- examples/tests/13-ngap.rs:9119-9126 -/
def HandoverCancelProtocolIEs_Entry : Ty := .sequence false 0 (.required true ProtocolIE_ID (.required false Criticality (.required false HandoverCancelProtocolIEs_EntryValue .nil)))
/-- examples/tests/13-ngap.rs:9128-9135 -/
def HandoverCancelProtocolIEs : Ty := .sequenceOf (some 0) (some 65535) false HandoverCancelProtocolIEs_Entry
/-- examples/tests/13-ngap.rs:2088-2092 -/
def HandoverCancel : Ty := .sequence true 0 (.required false HandoverCancelProtocolIEs .nil)
/-- examples/tests/13-ngap.rs:9137-9146 -/
def HandoverCancelAcknowledgeProtocolIEs_EntryValue : Ty := .openType (.cons 10 false AMF_UE_NGAP_ID (.cons 19 false CriticalityDiagnostics (.cons 85 false RAN_UE_NGAP_ID .nil)))
/-- examples/tests/13-ngap.rs:9148-9155 -/
def HandoverCancelAcknowledgeProtocolIEs_Entry : Ty := .sequence false 0 (.required true ProtocolIE_ID (.required false Criticality (.required false HandoverCancelAcknowledgeProtocolIEs_EntryValue .nil)))
/-- examples/tests/13-ngap.rs:9157-9166 -/
def HandoverCancelAcknowledgeProtocolIEs : Ty := .sequenceOf (some 0) (some 65535) false HandoverCancelAcknowledgeProtocolIEs_Entry
/-- examples/tests/13-ngap.rs:2094-2098 -/
def HandoverCancelAcknowledge : Ty := .sequence true 0 (.required false HandoverCancelAcknowledgeProtocolIEs .nil)
/-- examples/tests/13-ngap.rs:5956-5958 -/
def TargetToSource_TransparentContainer : Ty := .octetstring none none false
/-- examples/tests/13-ngap.rs:12352-12354 -/
def PDUSessionResourceToReleaseItemHOCmdIE_Extensions_Entry : Ty := .sequence false 0 .nil
/-- examples/tests/13-ngap.rs:12356-12365 -/
def PDUSessionResourceToReleaseItemHOCmdIE_Extensions : Ty := .sequenceOf (some 1) (some 65535) false PDUSessionResourceToReleaseItemHOCmdIE_Extensions_Entry
/-- examples/tests/13-ngap.rs:12348-12350 -/
def OCTET_STRING_65 : Ty := .octetstring none none false
/-- examples/tests/13-ngap.rs:3433-3435 -/
def PDUSessionID : Ty := .integer .u8 (some 0) (some 255) false
/-- examples/tests/13-ngap.rs:4278-4285 -/
def PDUSessionResourceToReleaseItemHOCmd : Ty := .sequence true 1 (.required false PDUSessionID (.required false OCTET_STRING_65 (.optional 0 PDUSessionResourceToReleaseItemHOCmdIE_Extensions .nil)))
/-- examples/tests/13-ngap.rs:4296-4303 -/
def PDUSessionResourceToReleaseListHOCmd : Ty := .sequenceOf (some 1) (some 256) false PDUSessionResourceToReleaseItemHOCmd
/-- examples/tests/13-ngap.rs:11179-11181 -/
def PDUSessionResourceHandoverItemIE_Extensions_Entry : Ty := .sequence false 0 .nil
/-- examples/tests/13-ngap.rs:11183-11192 -/
def PDUSessionResourceHandoverItemIE_Extensions : Ty := .sequenceOf (some 1) (some 65535) false PDUSessionResourceHandoverItemIE_Extensions_Entry
/-- examples/tests/13-ngap.rs:11175-11177 -/
def OCTET_STRING_43 : Ty := .octetstring none none false
/-- examples/tests/13-ngap.rs:3635-3642 -/
def PDUSessionResourceHandoverItem : Ty := .sequence true 1 (.required false PDUSessionID (.required false OCTET_STRING_43 (.optional 0 PDUSessionResourceHandoverItemIE_Extensions .nil)))
/-- examples/tests/13-ngap.rs:3644-3651 -/
def PDUSessionResourceHandoverList : Ty := .sequenceOf (some 1) (some 256) false PDUSessionResourceHandoverItem
/-- examples/tests/13-ngap.rs:2947-2949 -/
def NASSecurityParametersFromNGRAN : Ty := .octetstring none none false
/-- examples/tests/13-ngap.rs:2212-2214 -/
def HandoverType : Ty := .enumerated .u8 (some 0) (some 2) true
/-- examples/tests/13-ngap.rs:9168-9187 -/
def HandoverCommandProtocolIEs_EntryValue : Ty := .openType (.cons 10 false AMF_UE_NGAP_ID (.cons 19 false CriticalityDiagnostics (.cons 29 false HandoverType (.cons 39 false NASSecurityParametersFromNGRAN (.cons 59 false PDUSessionResourceHandoverList (.cons 78 false PDUSessionResourceToReleaseListHOCmd (.cons 85 false RAN_UE_NGAP_ID (.cons 106 false TargetToSource_TransparentContainer .nil))))))))
/-- examples/tests/13-ngap.rs:9189-9196 -/
def HandoverCommandProtocolIEs_Entry : Ty := .sequence false 0 (.required true ProtocolIE_ID (.required false Criticality (.required false HandoverCommandProtocolIEs_EntryValue .nil)))
/-- examples/tests/13-ngap.rs:9198-9205 -/
def HandoverCommandProtocolIEs : Ty := .sequenceOf (some 0) (some 65535) false HandoverCommandProtocolIEs_Entry
/-- examples/tests/13-ngap.rs:2100-2104 -/
def HandoverCommand : Ty := .sequence true 0 (.required false HandoverCommandProtocolIEs .nil)
/-- examples/tests/13-ngap.rs:15457-15459 -/
def UPTransportLayerInformationItemIE_Extensions_Entry : Ty := .sequence false 0 .nil
/-- examples/tests/13-ngap.rs:15461-15470 -/
def UPTransportLayerInformationItemIE_Extensions : Ty := .sequenceOf (some 1) (some 65535) false UPTransportLayerInformationItemIE_Extensions_Entry
/-- examples/tests/13-ngap.rs:6498-6504 -/
def UPTransportLayerInformationItem : Ty := .sequence true 1 (.required false UPTransportLayerInformation (.optional 0 UPTransportLayerInformationItemIE_Extensions .nil))
/-- examples/tests/13-ngap.rs:6506-6508 -/
def UPTransportLayerInformationList : Ty := .sequenceOf (some 1) (some 3) false UPTransportLayerInformationItem
/-- examples/tests/13-ngap.rs:13240-13242 -/
def QosFlowPerTNLInformationItemIE_Extensions_Entry : Ty := .sequence false 0 .nil
/-- examples/tests/13-ngap.rs:13244-13253 -/
def QosFlowPerTNLInformationItemIE_Extensions : Ty := .sequenceOf (some 1) (some 65535) false QosFlowPerTNLInformationItemIE_Extensions_Entry
/-- examples/tests/13-ngap.rs:13225-13227 -/
def QosFlowPerTNLInformationIE_Extensions_Entry : Ty := .sequence false 0 .nil
/-- examples/tests/13-ngap.rs:13229-13238 -/
def QosFlowPerTNLInformationIE_Extensions : Ty := .sequenceOf (some 1) (some 65535) false QosFlowPerTNLInformationIE_Extensions_Entry
/-- examples/tests/13-ngap.rs:4879-4886 -/
def QosFlowPerTNLInformation : Ty := .sequence true 1 (.required false UPTransportLayerInformation (.required false AssociatedQosFlowList (.optional 0 QosFlowPerTNLInformationIE_Extensions .nil)))
/-- examples/tests/13-ngap.rs:4888-4894 -/
def QosFlowPerTNLInformationItem : Ty := .sequence true 1 (.required false QosFlowPerTNLInformation (.optional 0 QosFlowPerTNLInformationItemIE_Extensions .nil))
/-- examples/tests/13-ngap.rs:4896-4898 -/
def QosFlowPerTNLInformationList : Ty := .sequenceOf (some 1) (some 3) false QosFlowPerTNLInformationItem
/-- examples/tests/13-ngap.rs:9207-9218 -/
def HandoverCommandTransferIE_Extensions_EntryExtensionValue : Ty := .openType (.cons 152 false QosFlowPerTNLInformationList (.cons 172 false UPTransportLayerInformationList (.cons 249 false DataForwardingResponseERABList (.cons 164 false UPTransportLayerInformation .nil))))
/-- examples/tests/13-ngap.rs:9220-9227 -/
def HandoverCommandTransferIE_Extensions_Entry : Ty := .sequence false 0 (.required true ProtocolExtensionID (.required false Criticality (.required false HandoverCommandTransferIE_Extensions_EntryExtensionValue .nil)))
/-- examples/tests/13-ngap.rs:9229-9238 -/
def HandoverCommandTransferIE_Extensions : Ty := .sequenceOf (some 1) (some 65535) false HandoverCommandTransferIE_Extensions_Entry
/-- examples/tests/13-ngap.rs:13284-13286 -/
def QosFlowToBeForwardedItemIE_Extensions_Entry : Ty := .sequence false 0 .nil
/-- examples/tests/13-ngap.rs:13288-13297 -/
def QosFlowToBeForwardedItemIE_Extensions : Ty := .sequenceOf (some 1) (some 65535) false QosFlowToBeForwardedItemIE_Extensions_Entry
/-- examples/tests/13-ngap.rs:4915-4921 -/
def QosFlowToBeForwardedItem : Ty := .sequence true 1 (.required false QosFlowIdentifier (.optional 0 QosFlowToBeForwardedItemIE_Extensions .nil))
/-- examples/tests/13-ngap.rs:4923-4925 -/
def QosFlowToBeForwardedList : Ty := .sequenceOf (some 1) (some 64) false QosFlowToBeForwardedItem
/-- examples/tests/13-ngap.rs:2106-2117 -/
def HandoverCommandTransfer : Ty := .sequence true 4 (.optional 0 UPTransportLayerInformation (.optional 1 QosFlowToBeForwardedList (.optional 2 DataForwardingResponseDRBList (.optional 3 HandoverCommandTransferIE_Extensions .nil))))
/-- examples/tests/13-ngap.rs:5969-5971 -/
def TargettoSource_Failure_TransparentContainer : Ty := .octetstring none none false
/-- examples/tests/13-ngap.rs:9240-9251 -/
def HandoverFailureProtocolIEs_EntryValue : Ty := .openType (.cons 10 false AMF_UE_NGAP_ID (.cons 15 false Cause (.cons 19 false CriticalityDiagnostics (.cons 262 false TargettoSource_Failure_TransparentContainer .nil))))
/-- examples/tests/13-ngap.rs:9253-9260 -/
def HandoverFailureProtocolIEs_Entry : Ty := .sequence false 0 (.required true ProtocolIE_ID (.required false Criticality (.required false HandoverFailureProtocolIEs_EntryValue .nil)))
/-- examples/tests/13-ngap.rs:9262-9269 -/
def HandoverFailureProtocolIEs : Ty := .sequenceOf (some 0) (some 65535) false HandoverFailureProtocolIEs_Entry
/-- examples/tests/13-ngap.rs:2119-2123 -/
def HandoverFailure : Ty := .sequence true 0 (.required false HandoverFailureProtocolIEs .nil)
/-- examples/tests/13-ngap.rs:2125-2127 -/
def HandoverFlag : Ty := .enumerated .u8 (some 0) (some 0) true
/-- examples/tests/13-ngap.rs:15857-15862 -/
def UserLocationInformationW_AGFchoice_ExtensionsValue : Ty := .openType (.cons 275 false GlobalCable_ID .nil)
/-- examples/tests/13-ngap.rs:15864-15871 -/
def UserLocationInformationW_AGFchoice_Extensions : Ty := .sequence false 0 (.required true ProtocolIE_ID (.required false Criticality (.required false UserLocationInformationW_AGFchoice_ExtensionsValue .nil)))
/-- examples/tests/13-ngap.rs:6669-6678 -/
def UserLocationInformationW_AGF : Ty := .choice 0 2 false (.cons 0 false GlobalLine_ID (.cons 1 false HFCNode_ID (.cons 2 false UserLocationInformationW_AGFchoice_Extensions .nil)))
/-- examples/tests/13-ngap.rs:15842-15844 -/
def UserLocationInformationTWIFIE_Extensions_Entry : Ty := .sequence false 0 .nil
/-- examples/tests/13-ngap.rs:15846-15855 -/
def UserLocationInformationTWIFIE_Extensions : Ty := .sequenceOf (some 1) (some 65535) false UserLocationInformationTWIFIE_Extensions_Entry
/-- examples/tests/13-ngap.rs:5895-5897 -/
def TWAP_ID : Ty := .octetstring none none false
/-- examples/tests/13-ngap.rs:6658-6667 -/
def UserLocationInformationTWIF : Ty := .sequence true 2 (.required false TWAP_ID (.required false TransportLayerAddress (.optional 0 PortNumber (.optional 1 UserLocationInformationTWIFIE_Extensions .nil))))
/-- examples/tests/13-ngap.rs:15827-15829 -/
def UserLocationInformationTNGFIE_Extensions_Entry : Ty := .sequence false 0 .nil
/-- examples/tests/13-ngap.rs:15831-15840 -/
def UserLocationInformationTNGFIE_Extensions : Ty := .sequenceOf (some 1) (some 65535) false UserLocationInformationTNGFIE_Extensions_Entry
/-- examples/tests/13-ngap.rs:5835-5837 -/
def TNAP_ID : Ty := .octetstring none none false
/-- examples/tests/13-ngap.rs:6647-6656 -/
def UserLocationInformationTNGF : Ty := .sequence true 2 (.required false TNAP_ID (.required false TransportLayerAddress (.optional 0 PortNumber (.optional 1 UserLocationInformationTNGFIE_Extensions .nil))))
/-- examples/tests/13-ngap.rs:15736-15745 -/
def UserLocationInformationchoice_ExtensionsValue : Ty := .openType (.cons 244 false UserLocationInformationTNGF (.cons 248 false UserLocationInformationTWIF (.cons 243 false UserLocationInformationW_AGF .nil)))
/-- examples/tests/13-ngap.rs:15747-15754 -/
def UserLocationInformationchoice_Extensions : Ty := .sequence false 0 (.required true ProtocolIE_ID (.required false Criticality (.required false UserLocationInformationchoice_ExtensionsValue .nil)))
/-- examples/tests/13-ngap.rs:15783-15785 -/
def UserLocationInformationN3IWFIE_Extensions_Entry : Ty := .sequence false 0 .nil
/-- examples/tests/13-ngap.rs:15787-15796 -/
def UserLocationInformationN3IWFIE_Extensions : Ty := .sequenceOf (some 1) (some 65535) false UserLocationInformationN3IWFIE_Extensions_Entry
/-- examples/tests/13-ngap.rs:6627-6634 -/
def UserLocationInformationN3IWF : Ty := .sequence true 1 (.required false TransportLayerAddress (.required false PortNumber (.optional 0 UserLocationInformationN3IWFIE_Extensions .nil)))
/-- examples/tests/13-ngap.rs:15798-15805 -/
def UserLocationInformationNRIE_Extensions_EntryExtensionValue : Ty := .openType (.cons 263 false NID (.cons 149 false NGRAN_CGI .nil))
/-- examples/tests/13-ngap.rs:15807-15814 -/
def UserLocationInformationNRIE_Extensions_Entry : Ty := .sequence false 0 (.required true ProtocolExtensionID (.required false Criticality (.required false UserLocationInformationNRIE_Extensions_EntryExtensionValue .nil)))
/-- examples/tests/13-ngap.rs:15816-15825 -/
def UserLocationInformationNRIE_Extensions : Ty := .sequenceOf (some 1) (some 65535) false UserLocationInformationNRIE_Extensions_Entry
/-- examples/tests/13-ngap.rs:5985-5987 -/
def TimeStamp : Ty := .octetstring (some 4) (some 4) false
/-- examples/tests/13-ngap.rs:6636-6645 -/
def UserLocationInformationNR : Ty := .sequence true 2 (.required false NR_CGI (.required false TAI (.optional 0 TimeStamp (.optional 1 UserLocationInformationNRIE_Extensions .nil))))
/-- examples/tests/13-ngap.rs:15756-15761 -/
def UserLocationInformationEUTRAIE_Extensions_EntryExtensionValue : Ty := .openType (.cons 149 false NGRAN_CGI .nil)
/-- examples/tests/13-ngap.rs:15763-15770 -/
def UserLocationInformationEUTRAIE_Extensions_Entry : Ty := .sequence false 0 (.required true ProtocolExtensionID (.required false Criticality (.required false UserLocationInformationEUTRAIE_Extensions_EntryExtensionValue .nil)))
/-- examples/tests/13-ngap.rs:15772-15781 -/
def UserLocationInformationEUTRAIE_Extensions : Ty := .sequenceOf (some 1) (some 65535) false UserLocationInformationEUTRAIE_Extensions_Entry
/-- examples/tests/13-ngap.rs:6616-6625 -/
def UserLocationInformationEUTRA : Ty := .sequence true 2 (.required false EUTRA_CGI (.required false TAI (.optional 0 TimeStamp (.optional 1 UserLocationInformationEUTRAIE_Extensions .nil))))
/-- examples/tests/13-ngap.rs:6603-6614 -/
def UserLocationInformation : Ty := .choice 0 3 false (.cons 0 false UserLocationInformationEUTRA (.cons 1 false UserLocationInformationNR (.cons 2 false UserLocationInformationN3IWF (.cons 3 false UserLocationInformationchoice_Extensions .nil))))
/-- examples/tests/13-ngap.rs:3313-3315 -/
def NotifySourceNGRANNode : Ty := .enumerated .u8 (some 0) (some 0) true
/-- examples/tests/13-ngap.rs:9271-9282 -/
def HandoverNotifyProtocolIEs_EntryValue : Ty := .openType (.cons 10 false AMF_UE_NGAP_ID (.cons 269 false NotifySourceNGRANNode (.cons 85 false RAN_UE_NGAP_ID (.cons 121 false UserLocationInformation .nil))))
/-- examples/tests/13-ngap.rs:9284-9291 -/
def HandoverNotifyProtocolIEs_Entry : Ty := .sequence false 0 (.required true ProtocolIE_ID (.required false Criticality (.required false HandoverNotifyProtocolIEs_EntryValue .nil)))
/-- examples/tests/13-ngap.rs:9293-9300 -/
def HandoverNotifyProtocolIEs : Ty := .sequenceOf (some 0) (some 65535) false HandoverNotifyProtocolIEs_Entry
/-- examples/tests/13-ngap.rs:2132-2136 -/
def HandoverNotify : Ty := .sequence true 0 (.required false HandoverNotifyProtocolIEs .nil)
/-- examples/tests/13-ngap.rs:9302-9315 -/
def HandoverPreparationFailureProtocolIEs_EntryValue : Ty := .openType (.cons 10 false AMF_UE_NGAP_ID (.cons 15 false Cause (.cons 19 false CriticalityDiagnostics (.cons 85 false RAN_UE_NGAP_ID (.cons 262 false TargettoSource_Failure_TransparentContainer .nil)))))
/-- examples/tests/13-ngap.rs:9317-9324 -/
def HandoverPreparationFailureProtocolIEs_Entry : Ty := .sequence false 0 (.required true ProtocolIE_ID (.required false Criticality (.required false HandoverPreparationFailureProtocolIEs_EntryValue .nil)))
/-- examples/tests/13-ngap.rs:9326-9335 -/
def HandoverPreparationFailureProtocolIEs : Ty := .sequenceOf (some 0) (some 65535) false HandoverPreparationFailureProtocolIEs_Entry
/-- examples/tests/13-ngap.rs:2138-2142 -/
def HandoverPreparationFailure : Ty := .sequence true 0 (.required false HandoverPreparationFailureProtocolIEs .nil)
/-- examples/tests/13-ngap.rs:9337-9339 -/
def HandoverPreparationUnsuccessfulTransferIE_Extensions_Entry : Ty := .sequence false 0 .nil
/-- examples/tests/13-ngap.rs:9341-9350 -/
def HandoverPreparationUnsuccessfulTransferIE_Extensions : Ty := .sequenceOf (some 1) (some 65535) false HandoverPreparationUnsuccessfulTransferIE_Extensions_Entry
/-- examples/tests/13-ngap.rs:2144-2150 -/
def HandoverPreparationUnsuccessfulTransfer : Ty := .sequence true 1 (.required false Cause (.optional 0 HandoverPreparationUnsuccessfulTransferIE_Extensions .nil))
/-- examples/tests/13-ngap.rs:15367-15369 -/
def UESecurityCapabilitiesIE_Extensions_Entry : Ty := .sequence false 0 .nil
/-- examples/tests/13-ngap.rs:15371-15378 -/
def UESecurityCapabilitiesIE_Extensions : Ty := .sequenceOf (some 1) (some 65535) false UESecurityCapabilitiesIE_Extensions_Entry
/-- examples/tests/13-ngap.rs:3240-3242 -/
def NRintegrityProtectionAlgorithms : Ty := .bitstring (some 16) (some 16) true
/-- examples/tests/13-ngap.rs:3236-3238 -/
def NRencryptionAlgorithms : Ty := .bitstring (some 16) (some 16) true
/-- examples/tests/13-ngap.rs:6435-6444 -/
def UESecurityCapabilities : Ty := .sequence true 1 (.required false NRencryptionAlgorithms (.required false NRintegrityProtectionAlgorithms (.required false EUTRAencryptionAlgorithms (.required false EUTRAintegrityProtectionAlgorithms (.optional 0 UESecurityCapabilitiesIE_Extensions .nil)))))
/-- examples/tests/13-ngap.rs:6148-6150 -/
def UE_UP_CIoT_Support : Ty := .enumerated .u8 (some 0) (some 0) true
/-- examples/tests/13-ngap.rs:10425-10427 -/
def MDT_ConfigurationIE_Extensions_Entry : Ty := .sequence false 0 .nil
/-- examples/tests/13-ngap.rs:10429-10436 -/
def MDT_ConfigurationIE_Extensions : Ty := .sequenceOf (some 1) (some 65535) false MDT_ConfigurationIE_Extensions_Entry
/-- examples/tests/13-ngap.rs:10438-10440 -/
def MDT_Configuration_EUTRAIE_Extensions_Entry : Ty := .sequence false 0 .nil
/-- examples/tests/13-ngap.rs:10442-10451 -/
def MDT_Configuration_EUTRAIE_Extensions : Ty := .sequenceOf (some 1) (some 65535) false MDT_Configuration_EUTRAIE_Extensions_Entry
/-- examples/tests/13-ngap.rs:2862-2864 -/
def MDTPLMNList : Ty := .sequenceOf (some 1) (some 16) false PLMNIdentity
/-- examples/tests/13-ngap.rs:2847-2849 -/
def MDTModeEutra : Ty := .octetstring none none false
/-- examples/tests/13-ngap.rs:2791-2793 -/
def MDT_Activation : Ty := .enumerated .u8 (some 0) (some 2) true
/-- examples/tests/13-ngap.rs:2811-2821 -/
def MDT_Configuration_EUTRA : Ty := .sequence true 2 (.required false MDT_Activation (.required false AreaScopeOfMDT_EUTRA (.required false MDTModeEutra (.optional 0 MDTPLMNList (.optional 1 MDT_Configuration_EUTRAIE_Extensions .nil)))))
/-- examples/tests/13-ngap.rs:10453-10455 -/
def MDT_Configuration_NRIE_Extensions_Entry : Ty := .sequence false 0 .nil
/-- examples/tests/13-ngap.rs:10457-10464 -/
def MDT_Configuration_NRIE_Extensions : Ty := .sequenceOf (some 1) (some 65535) false MDT_Configuration_NRIE_Extensions_Entry
/-- examples/tests/13-ngap.rs:10479-10481 -/
def MDTModeNrchoice_Extensions : Ty := .sequence false 0 .nil
/-- examples/tests/13-ngap.rs:10309-10311 -/
def LoggedMDTNrIE_Extensions_Entry : Ty := .sequence false 0 .nil
/-- examples/tests/13-ngap.rs:10313-10320 -/
def LoggedMDTNrIE_Extensions : Ty := .sequenceOf (some 1) (some 65535) false LoggedMDTNrIE_Extensions_Entry
/-- examples/tests/13-ngap.rs:13920-13922 -/
def SensorMeasurementConfigurationIE_Extensions_Entry : Ty := .sequence false 0 .nil
/-- examples/tests/13-ngap.rs:13924-13933 -/
def SensorMeasurementConfigurationIE_Extensions : Ty := .sequenceOf (some 1) (some 65535) false SensorMeasurementConfigurationIE_Extensions_Entry
/-- examples/tests/13-ngap.rs:13905-13907 -/
def SensorMeasConfigNameItemIE_Extensions_Entry : Ty := .sequence false 0 .nil
/-- examples/tests/13-ngap.rs:13909-13918 -/
def SensorMeasConfigNameItemIE_Extensions : Ty := .sequenceOf (some 1) (some 65535) false SensorMeasConfigNameItemIE_Extensions_Entry
/-- examples/tests/13-ngap.rs:13956-13958 -/
def SensorNameConfigchoice_Extensions : Ty := .sequence false 0 .nil
/-- examples/tests/13-ngap.rs:13949-13951 -/
def ENUMERATED_80 : Ty := .enumerated .u8 (some 0) (some 0) true
/-- examples/tests/13-ngap.rs:13942-13944 -/
def ENUMERATED_79 : Ty := .enumerated .u8 (some 0) (some 0) true
/-- examples/tests/13-ngap.rs:13935-13937 -/
def ENUMERATED_78 : Ty := .enumerated .u8 (some 0) (some 0) true
/-- examples/tests/13-ngap.rs:5496-5507 -/
def SensorNameConfig : Ty := .choice 0 3 false (.cons 0 false ENUMERATED_78 (.cons 1 false ENUMERATED_79 (.cons 2 false ENUMERATED_80 (.cons 3 false SensorNameConfigchoice_Extensions .nil))))
/-- examples/tests/13-ngap.rs:5474-5480 -/
def SensorMeasConfigNameItem : Ty := .sequence true 1 (.required false SensorNameConfig (.optional 0 SensorMeasConfigNameItemIE_Extensions .nil))
/-- examples/tests/13-ngap.rs:5482-5484 -/
def SensorMeasConfigNameList : Ty := .sequenceOf (some 1) (some 3) false SensorMeasConfigNameItem
/-- examples/tests/13-ngap.rs:5467-5469 -/
def SensorMeasConfig : Ty := .enumerated .u8 (some 0) (some 0) true
/-- examples/tests/13-ngap.rs:5486-5494 -/
def SensorMeasurementConfiguration : Ty := .sequence true 2 (.required false SensorMeasConfig (.optional 0 SensorMeasConfigNameList (.optional 1 SensorMeasurementConfigurationIE_Extensions .nil)))
/-- examples/tests/13-ngap.rs:15952-15954 -/
def WLANMeasurementConfigurationIE_Extensions_Entry : Ty := .sequence false 0 .nil
/-- examples/tests/13-ngap.rs:15956-15965 -/
def WLANMeasurementConfigurationIE_Extensions : Ty := .sequenceOf (some 1) (some 65535) false WLANMeasurementConfigurationIE_Extensions_Entry
/-- examples/tests/13-ngap.rs:15945-15947 -/
def ENUMERATED_95 : Ty := .enumerated .u8 (some 0) (some 0) true
/-- examples/tests/13-ngap.rs:15938-15940 -/
def ENUMERATED_94 : Ty := .enumerated .u8 (some 0) (some 0) true
/-- examples/tests/13-ngap.rs:15925-15927 -/
def WLANMeasConfigNameItemIE_Extensions_Entry : Ty := .sequence false 0 .nil
/-- examples/tests/13-ngap.rs:15929-15936 -/
def WLANMeasConfigNameItemIE_Extensions : Ty := .sequenceOf (some 1) (some 65535) false WLANMeasConfigNameItemIE_Extensions_Entry
/-- examples/tests/13-ngap.rs:6754-6761 -/
def WLANName : Ty := .octetstring (some 1) (some 32) false
/-- examples/tests/13-ngap.rs:6728-6734 -/
def WLANMeasConfigNameItem : Ty := .sequence true 1 (.required false WLANName (.optional 0 WLANMeasConfigNameItemIE_Extensions .nil))
/-- examples/tests/13-ngap.rs:6736-6738 -/
def WLANMeasConfigNameList : Ty := .sequenceOf (some 1) (some 4) false WLANMeasConfigNameItem
/-- examples/tests/13-ngap.rs:6721-6723 -/
def WLANMeasConfig : Ty := .enumerated .u8 (some 0) (some 0) true
/-- examples/tests/13-ngap.rs:6740-6752 -/
def WLANMeasurementConfiguration : Ty := .sequence true 4 (.required false WLANMeasConfig (.optional 0 WLANMeasConfigNameList (.optional 1 ENUMERATED_94 (.optional 2 ENUMERATED_95 (.optional 3 WLANMeasurementConfigurationIE_Extensions .nil)))))
/-- examples/tests/13-ngap.rs:10326-10328 -/
def LoggedMDTTriggerchoice_Extensions : Ty := .sequence false 0 .nil
/-- examples/tests/13-ngap.rs:10322-10324 -/
def NULL_30 : Ty := .null
/-- examples/tests/13-ngap.rs:2618-2627 -/
def LoggedMDTTrigger : Ty := .choice 0 2 false (.cons 0 false NULL_30 (.cons 1 false EventTrigger (.cons 2 false LoggedMDTTriggerchoice_Extensions .nil)))
/-- examples/tests/13-ngap.rs:2629-2631 -/
def LoggingDuration : Ty := .enumerated .u8 (some 0) (some 5) true
/-- examples/tests/13-ngap.rs:2641-2643 -/
def LoggingInterval : Ty := .enumerated .u8 (some 0) (some 10) true
/-- examples/tests/13-ngap.rs:2600-2616 -/
def LoggedMDTNr : Ty := .sequence true 5 (.required false LoggingInterval (.required false LoggingDuration (.required false LoggedMDTTrigger (.optional 0 BluetoothMeasurementConfiguration (.optional 1 WLANMeasurementConfiguration (.optional 2 SensorMeasurementConfiguration (.optional 3 AreaScopeOfNeighCellsList (.optional 4 LoggedMDTNrIE_Extensions .nil))))))))
/-- examples/tests/13-ngap.rs:9615-9617 -/
def ImmediateMDTNrIE_Extensions_Entry : Ty := .sequence false 0 .nil
/-- examples/tests/13-ngap.rs:9619-9626 -/
def ImmediateMDTNrIE_Extensions : Ty := .sequenceOf (some 1) (some 65535) false ImmediateMDTNrIE_Extensions_Entry
/-- examples/tests/13-ngap.rs:10466-10468 -/
def MDT_Location_InfoIE_Extensions_Entry : Ty := .sequence false 0 .nil
/-- examples/tests/13-ngap.rs:10470-10477 -/
def MDT_Location_InfoIE_Extensions : Ty := .sequenceOf (some 1) (some 65535) false MDT_Location_InfoIE_Extensions_Entry
/-- examples/tests/13-ngap.rs:2843-2845 -/
def MDT_Location_Information : Ty := .bitstring (some 8) (some 8) false
/-- examples/tests/13-ngap.rs:2835-2841 -/
def MDT_Location_Info : Ty := .sequence true 1 (.required false MDT_Location_Information (.optional 0 MDT_Location_InfoIE_Extensions .nil))
/-- examples/tests/13-ngap.rs:10412-10414 -/
def M7ConfigurationIE_Extensions_Entry : Ty := .sequence false 0 .nil
/-- examples/tests/13-ngap.rs:10416-10423 -/
def M7ConfigurationIE_Extensions : Ty := .sequenceOf (some 1) (some 65535) false M7ConfigurationIE_Extensions_Entry
/-- examples/tests/13-ngap.rs:2549-2551 -/
def Links_to_log : Ty := .enumerated .u8 (some 0) (some 2) true
/-- examples/tests/13-ngap.rs:2787-2789 -/
def M7period : Ty := .integer .u8 (some 1) (some 60) true
/-- examples/tests/13-ngap.rs:2778-2785 -/
def M7Configuration : Ty := .sequence true 1 (.required false M7period (.required false Links_to_log (.optional 0 M7ConfigurationIE_Extensions .nil)))
/-- examples/tests/13-ngap.rs:10399-10401 -/
def M6ConfigurationIE_Extensions_Entry : Ty := .sequence false 0 .nil
/-- examples/tests/13-ngap.rs:10403-10410 -/
def M6ConfigurationIE_Extensions : Ty := .sequenceOf (some 1) (some 65535) false M6ConfigurationIE_Extensions_Entry
/-- examples/tests/13-ngap.rs:2758-2760 -/
def M6report_Interval : Ty := .enumerated .u8 (some 0) (some 13) true
/-- examples/tests/13-ngap.rs:2749-2756 -/
def M6Configuration : Ty := .sequence true 1 (.required false M6report_Interval (.required false Links_to_log (.optional 0 M6ConfigurationIE_Extensions .nil)))
/-- examples/tests/13-ngap.rs:10386-10388 -/
def M5ConfigurationIE_Extensions_Entry : Ty := .sequence false 0 .nil
/-- examples/tests/13-ngap.rs:10390-10397 -/
def M5ConfigurationIE_Extensions : Ty := .sequenceOf (some 1) (some 65535) false M5ConfigurationIE_Extensions_Entry
/-- examples/tests/13-ngap.rs:2738-2740 -/
def M5period : Ty := .enumerated .u8 (some 0) (some 4) true
/-- examples/tests/13-ngap.rs:2729-2736 -/
def M5Configuration : Ty := .sequence true 1 (.required false M5period (.required false Links_to_log (.optional 0 M5ConfigurationIE_Extensions .nil)))
/-- examples/tests/13-ngap.rs:10373-10375 -/
def M4ConfigurationIE_Extensions_Entry : Ty := .sequence false 0 .nil
/-- examples/tests/13-ngap.rs:10377-10384 -/
def M4ConfigurationIE_Extensions : Ty := .sequenceOf (some 1) (some 65535) false M4ConfigurationIE_Extensions_Entry
/-- examples/tests/13-ngap.rs:2718-2720 -/
def M4period : Ty := .enumerated .u8 (some 0) (some 4) true
/-- examples/tests/13-ngap.rs:2709-2716 -/
def M4Configuration : Ty := .sequence true 1 (.required false M4period (.required false Links_to_log (.optional 0 M4ConfigurationIE_Extensions .nil)))
/-- examples/tests/13-ngap.rs:10330-10332 -/
def M1ConfigurationIE_Extensions_Entry : Ty := .sequence false 0 .nil
/-- examples/tests/13-ngap.rs:10334-10341 -/
def M1ConfigurationIE_Extensions : Ty := .sequenceOf (some 1) (some 65535) false M1ConfigurationIE_Extensions_Entry
/-- examples/tests/13-ngap.rs:10343-10345 -/
def M1PeriodicReportingIE_Extensions_Entry : Ty := .sequence false 0 .nil
/-- examples/tests/13-ngap.rs:10347-10354 -/
def M1PeriodicReportingIE_Extensions : Ty := .sequenceOf (some 1) (some 65535) false M1PeriodicReportingIE_Extensions_Entry
/-- examples/tests/13-ngap.rs:5228-5230 -/
def ReportAmountMDT : Ty := .enumerated .u8 (some 0) (some 7) false
/-- examples/tests/13-ngap.rs:5249-5251 -/
def ReportIntervalMDT : Ty := .enumerated .u8 (some 0) (some 12) false
/-- examples/tests/13-ngap.rs:2670-2677 -/
def M1PeriodicReporting : Ty := .sequence true 1 (.required false ReportIntervalMDT (.required false ReportAmountMDT (.optional 0 M1PeriodicReportingIE_Extensions .nil)))
/-- examples/tests/13-ngap.rs:10356-10358 -/
def M1ThresholdEventA2IE_Extensions_Entry : Ty := .sequence false 0 .nil
/-- examples/tests/13-ngap.rs:10360-10367 -/
def M1ThresholdEventA2IE_Extensions : Ty := .sequenceOf (some 1) (some 65535) false M1ThresholdEventA2IE_Extensions_Entry
/-- examples/tests/13-ngap.rs:10369-10371 -/
def M1ThresholdTypechoice_Extensions : Ty := .sequence false 0 .nil
/-- examples/tests/13-ngap.rs:5981-5983 -/
def Threshold_SINR : Ty := .integer .u8 (some 0) (some 127) false
/-- examples/tests/13-ngap.rs:2696-2707 -/
def M1ThresholdType : Ty := .choice 0 3 false (.cons 0 false Threshold_RSRP (.cons 1 false Threshold_RSRQ (.cons 2 false Threshold_SINR (.cons 3 false M1ThresholdTypechoice_Extensions .nil))))
/-- examples/tests/13-ngap.rs:2688-2694 -/
def M1ThresholdEventA2 : Ty := .sequence true 1 (.required false M1ThresholdType (.optional 0 M1ThresholdEventA2IE_Extensions .nil))
/-- examples/tests/13-ngap.rs:2679-2681 -/
def M1ReportingTrigger : Ty := .enumerated .u8 (some 0) (some 2) true
/-- examples/tests/13-ngap.rs:2658-2668 -/
def M1Configuration : Ty := .sequence true 3 (.required false M1ReportingTrigger (.optional 0 M1ThresholdEventA2 (.optional 1 M1PeriodicReporting (.optional 2 M1ConfigurationIE_Extensions .nil))))
/-- examples/tests/13-ngap.rs:2900-2902 -/
def MeasurementsToActivate : Ty := .bitstring (some 8) (some 8) false
/-- examples/tests/13-ngap.rs:2255-2279 -/
def ImmediateMDTNr : Ty := .sequence true 10 (.required false MeasurementsToActivate (.optional 0 M1Configuration (.optional 1 M4Configuration (.optional 2 M5Configuration (.optional 3 M6Configuration (.optional 4 M7Configuration (.optional 5 BluetoothMeasurementConfiguration (.optional 6 WLANMeasurementConfiguration (.optional 7 MDT_Location_Info (.optional 8 SensorMeasurementConfiguration (.optional 9 ImmediateMDTNrIE_Extensions .nil)))))))))))
/-- examples/tests/13-ngap.rs:2851-2860 -/
def MDTModeNr : Ty := .choice 0 2 false (.cons 0 false ImmediateMDTNr (.cons 1 false LoggedMDTNr (.cons 2 false MDTModeNrchoice_Extensions .nil)))
/-- examples/tests/13-ngap.rs:2823-2833 -/
def MDT_Configuration_NR : Ty := .sequence true 2 (.required false MDT_Activation (.required false AreaScopeOfMDT_NR (.required false MDTModeNr (.optional 0 MDTPLMNList (.optional 1 MDT_Configuration_NRIE_Extensions .nil)))))
/-- examples/tests/13-ngap.rs:2800-2809 -/
def MDT_Configuration : Ty := .sequence true 3 (.optional 0 MDT_Configuration_NR (.optional 1 MDT_Configuration_EUTRA (.optional 2 MDT_ConfigurationIE_Extensions .nil)))
/-- examples/tests/13-ngap.rs:14445-14452 -/
def TraceActivationIE_Extensions_EntryExtensionValue : Ty := .openType (.cons 255 false MDT_Configuration (.cons 257 false URI_address .nil))
/-- examples/tests/13-ngap.rs:14454-14461 -/
def TraceActivationIE_Extensions_Entry : Ty := .sequence false 0 (.required true ProtocolExtensionID (.required false Criticality (.required false TraceActivationIE_Extensions_EntryExtensionValue .nil)))
/-- examples/tests/13-ngap.rs:14463-14470 -/
def TraceActivationIE_Extensions : Ty := .sequenceOf (some 1) (some 65535) false TraceActivationIE_Extensions_Entry
/-- examples/tests/13-ngap.rs:6060-6062 -/
def TraceDepth : Ty := .enumerated .u8 (some 0) (some 5) true
/-- examples/tests/13-ngap.rs:2376-2378 -/
def InterfacesToTrace : Ty := .bitstring (some 8) (some 8) false
/-- examples/tests/13-ngap.rs:6049-6058 -/
def TraceActivation : Ty := .sequence true 1 (.required false NGRANTraceID (.required false InterfacesToTrace (.required false TraceDepth (.required false TransportLayerAddress (.optional 0 TraceActivationIE_Extensions .nil)))))
/-- examples/tests/13-ngap.rs:5632-5634 -/
def SourceToTarget_TransparentContainer : Ty := .octetstring none none false
/-- examples/tests/13-ngap.rs:13854-13856 -/
def SecurityContextIE_Extensions_Entry : Ty := .sequence false 0 .nil
/-- examples/tests/13-ngap.rs:13858-13865 -/
def SecurityContextIE_Extensions : Ty := .sequenceOf (some 1) (some 65535) false SecurityContextIE_Extensions_Entry
/-- examples/tests/13-ngap.rs:5449-5456 -/
def SecurityKey : Ty := .bitstring (some 256) (some 256) false
/-- examples/tests/13-ngap.rs:3255-3257 -/
def NextHopChainingCount : Ty := .integer .u8 (some 0) (some 7) false
/-- examples/tests/13-ngap.rs:5429-5436 -/
def SecurityContext : Ty := .sequence true 1 (.required false NextHopChainingCount (.required false SecurityKey (.optional 0 SecurityContextIE_Extensions .nil)))
/-- examples/tests/13-ngap.rs:5171-5173 -/
def RedirectionVoiceFallback : Ty := .enumerated .u8 (some 0) (some 1) true
/-- examples/tests/13-ngap.rs:5089-5091 -/
def RRCInactiveTransitionReportRequest : Ty := .enumerated .u8 (some 0) (some 2) true
/-- examples/tests/13-ngap.rs:12065-12067 -/
def PDUSessionResourceSetupItemHOReqIE_Extensions_Entry : Ty := .sequence false 0 .nil
/-- examples/tests/13-ngap.rs:12069-12078 -/
def PDUSessionResourceSetupItemHOReqIE_Extensions : Ty := .sequenceOf (some 1) (some 65535) false PDUSessionResourceSetupItemHOReqIE_Extensions_Entry
/-- examples/tests/13-ngap.rs:12061-12063 -/
def OCTET_STRING_59 : Ty := .octetstring none none false
/-- examples/tests/13-ngap.rs:4106-4114 -/
def PDUSessionResourceSetupItemHOReq : Ty := .sequence true 1 (.required false PDUSessionID (.required false S_NSSAI (.required false OCTET_STRING_59 (.optional 0 PDUSessionResourceSetupItemHOReqIE_Extensions .nil))))
/-- examples/tests/13-ngap.rs:4155-4162 -/
def PDUSessionResourceSetupListHOReq : Ty := .sequenceOf (some 1) (some 256) false PDUSessionResourceSetupItemHOReq
/-- examples/tests/13-ngap.rs:10965-10967 -/
def PC5QoSParametersIE_Extensions_Entry : Ty := .sequence false 0 .nil
/-- examples/tests/13-ngap.rs:10969-10976 -/
def PC5QoSParametersIE_Extensions : Ty := .sequenceOf (some 1) (some 65535) false PC5QoSParametersIE_Extensions_Entry
/-- examples/tests/13-ngap.rs:10952-10954 -/
def PC5QoSFlowItemIE_Extensions_Entry : Ty := .sequence false 0 .nil
/-- examples/tests/13-ngap.rs:10956-10963 -/
def PC5QoSFlowItemIE_Extensions : Ty := .sequenceOf (some 1) (some 65535) false PC5QoSFlowItemIE_Extensions_Entry
/-- examples/tests/13-ngap.rs:5114-5116 -/
def Range : Ty := .enumerated .u8 (some 0) (some 8) true
/-- examples/tests/13-ngap.rs:10939-10941 -/
def PC5FlowBitRatesIE_Extensions_Entry : Ty := .sequence false 0 .nil
/-- examples/tests/13-ngap.rs:10943-10950 -/
def PC5FlowBitRatesIE_Extensions : Ty := .sequenceOf (some 1) (some 65535) false PC5FlowBitRatesIE_Extensions_Entry
/-- examples/tests/13-ngap.rs:3380-3387 -/
def PC5FlowBitRates : Ty := .sequence true 1 (.required false BitRate (.required false BitRate (.optional 0 PC5FlowBitRatesIE_Extensions .nil)))
/-- examples/tests/13-ngap.rs:3389-3399 -/
def PC5QoSFlowItem : Ty := .sequence true 3 (.required false FiveQI (.optional 0 PC5FlowBitRates (.optional 1 Range (.optional 2 PC5QoSFlowItemIE_Extensions .nil))))
/-- examples/tests/13-ngap.rs:3401-3408 -/
def PC5QoSFlowList : Ty := .sequenceOf (some 1) (some 2048) false PC5QoSFlowItem
/-- examples/tests/13-ngap.rs:3410-3418 -/
def PC5QoSParameters : Ty := .sequence true 2 (.required false PC5QoSFlowList (.optional 0 BitRate (.optional 1 PC5QoSParametersIE_Extensions .nil)))
/-- examples/tests/13-ngap.rs:3248-3250 -/
def NewSecurityContextInd : Ty := .enumerated .u8 (some 0) (some 0) true
/-- examples/tests/13-ngap.rs:10820-10822 -/
def NRV2XServicesAuthorizedIE_Extensions_Entry : Ty := .sequence false 0 .nil
/-- examples/tests/13-ngap.rs:10824-10833 -/
def NRV2XServicesAuthorizedIE_Extensions : Ty := .sequenceOf (some 1) (some 65535) false NRV2XServicesAuthorizedIE_Extensions_Entry
/-- examples/tests/13-ngap.rs:4609-4611 -/
def PedestrianUE : Ty := .enumerated .u8 (some 0) (some 1) true
/-- examples/tests/13-ngap.rs:6689-6691 -/
def VehicleUE : Ty := .enumerated .u8 (some 0) (some 1) true
/-- examples/tests/13-ngap.rs:3225-3234 -/
def NRV2XServicesAuthorized : Ty := .sequence true 3 (.optional 0 VehicleUE (.optional 1 PedestrianUE (.optional 2 NRV2XServicesAuthorizedIE_Extensions .nil)))
/-- examples/tests/13-ngap.rs:10805-10807 -/
def NRUESidelinkAggregateMaximumBitrateIE_Extensions_Entry : Ty := .sequence false 0 .nil
/-- examples/tests/13-ngap.rs:10809-10818 -/
def NRUESidelinkAggregateMaximumBitrateIE_Extensions : Ty := .sequenceOf (some 1) (some 65535) false NRUESidelinkAggregateMaximumBitrateIE_Extensions_Entry
/-- examples/tests/13-ngap.rs:3217-3223 -/
def NRUESidelinkAggregateMaximumBitrate : Ty := .sequence true 1 (.required false BitRate (.optional 0 NRUESidelinkAggregateMaximumBitrateIE_Extensions .nil))
/-- examples/tests/13-ngap.rs:2873-2875 -/
def MaskedIMEISV : Ty := .bitstring (some 64) (some 64) false
/-- examples/tests/13-ngap.rs:2564-2566 -/
def LocationReportingAdditionalInfo : Ty := .enumerated .u8 (some 0) (some 0) true
/-- examples/tests/13-ngap.rs:10282-10287 -/
def LocationReportingRequestTypeIE_Extensions_EntryExtensionValue : Ty := .openType (.cons 170 false LocationReportingAdditionalInfo .nil)
/-- examples/tests/13-ngap.rs:10289-10296 -/
def LocationReportingRequestTypeIE_Extensions_Entry : Ty := .sequence false 0 (.required true ProtocolExtensionID (.required false Criticality (.required false LocationReportingRequestTypeIE_Extensions_EntryExtensionValue .nil)))
/-- examples/tests/13-ngap.rs:10298-10307 -/
def LocationReportingRequestTypeIE_Extensions : Ty := .sequenceOf (some 1) (some 65535) false LocationReportingRequestTypeIE_Extensions_Entry
/-- examples/tests/13-ngap.rs:5242-5244 -/
def ReportArea : Ty := .enumerated .u8 (some 0) (some 0) true
/-- examples/tests/13-ngap.rs:2587-2598 -/
def LocationReportingRequestType : Ty := .sequence true 3 (.required false EventType (.required false ReportArea (.optional 0 AreaOfInterestList (.optional 1 LocationReportingReferenceID (.optional 2 LocationReportingRequestTypeIE_Extensions .nil)))))
/-- examples/tests/13-ngap.rs:10142-10144 -/
def LTEV2XServicesAuthorizedIE_Extensions_Entry : Ty := .sequence false 0 .nil
/-- examples/tests/13-ngap.rs:10146-10155 -/
def LTEV2XServicesAuthorizedIE_Extensions : Ty := .sequenceOf (some 1) (some 65535) false LTEV2XServicesAuthorizedIE_Extensions_Entry
/-- examples/tests/13-ngap.rs:2481-2490 -/
def LTEV2XServicesAuthorized : Ty := .sequence true 3 (.optional 0 VehicleUE (.optional 1 PedestrianUE (.optional 2 LTEV2XServicesAuthorizedIE_Extensions .nil)))
/-- examples/tests/13-ngap.rs:10127-10129 -/
def LTEUESidelinkAggregateMaximumBitrateIE_Extensions_Entry : Ty := .sequence false 0 .nil
/-- examples/tests/13-ngap.rs:10131-10140 -/
def LTEUESidelinkAggregateMaximumBitrateIE_Extensions : Ty := .sequenceOf (some 1) (some 65535) false LTEUESidelinkAggregateMaximumBitrateIE_Extensions_Entry
/-- examples/tests/13-ngap.rs:2473-2479 -/
def LTEUESidelinkAggregateMaximumBitrate : Ty := .sequence true 1 (.required false BitRate (.optional 0 LTEUESidelinkAggregateMaximumBitrateIE_Extensions .nil))
/-- examples/tests/13-ngap.rs:2225-2227 -/
def IAB_Authorized : Ty := .enumerated .u8 (some 0) (some 1) true
/-- examples/tests/13-ngap.rs:9352-9423 -/
def HandoverRequestProtocolIEs_EntryValue : Ty := .openType (.cons 10 false AMF_UE_NGAP_ID (.cons 0 false AllowedNSSAI (.cons 222 false CEmodeBrestricted (.cons 165 false CNAssistedRANTuning (.cons 15 false Cause (.cons 18 false CoreNetworkAssistanceInformationForInactive (.cons 205 false Enhanced_CoverageRestriction (.cons 206 false Extended_ConnectedTime (.cons 28 false GUAMI (.cons 29 false HandoverType (.cons 199 false IAB_Authorized (.cons 217 false LTEUESidelinkAggregateMaximumBitrate (.cons 215 false LTEV2XServicesAuthorized (.cons 33 false LocationReportingRequestType (.cons 254 false MDTPLMNList (.cons 34 false MaskedIMEISV (.cons 36 false MobilityRestrictionList (.cons 37 false NAS_PDU (.cons 218 false NRUESidelinkAggregateMaximumBitrate (.cons 216 false NRV2XServicesAuthorized (.cons 41 false NewSecurityContextInd (.cons 219 false PC5QoSParameters (.cons 73 false PDUSessionResourceSetupListHOReq (.cons 91 false RRCInactiveTransitionReportRequest (.cons 146 false RedirectionVoiceFallback (.cons 177 false SRVCCOperationPossible (.cons 93 false SecurityContext (.cons 101 false SourceToTarget_TransparentContainer (.cons 108 false TraceActivation (.cons 209 false UE_DifferentiationInfo (.cons 234 false UE_UP_CIoT_Support (.cons 110 false UEAggregateMaximumBitRate (.cons 264 false UERadioCapabilityID (.cons 119 false UESecurityCapabilities .nil))))))))))))))))))))))))))))))))))
/-- examples/tests/13-ngap.rs:9425-9432 -/
def HandoverRequestProtocolIEs_Entry : Ty := .sequence false 0 (.required true ProtocolIE_ID (.required false Criticality (.required false HandoverRequestProtocolIEs_EntryValue .nil)))
/-- examples/tests/13-ngap.rs:9434-9441 -/
def HandoverRequestProtocolIEs : Ty := .sequenceOf (some 0) (some 65535) false HandoverRequestProtocolIEs_Entry
/-- examples/tests/13-ngap.rs:2152-2156 -/
def HandoverRequest : Ty := .sequence true 0 (.required false HandoverRequestProtocolIEs .nil)
/-- examples/tests/13-ngap.rs:11122-11124 -/
def PDUSessionResourceFailedToSetupItemHOAckIE_Extensions_Entry : Ty := .sequence false 0 .nil
/-- examples/tests/13-ngap.rs:11126-11135 -/
def PDUSessionResourceFailedToSetupItemHOAckIE_Extensions : Ty := .sequenceOf (some 1) (some 65535) false PDUSessionResourceFailedToSetupItemHOAckIE_Extensions_Entry
/-- examples/tests/13-ngap.rs:11118-11120 -/
def OCTET_STRING_40 : Ty := .octetstring none none false
/-- examples/tests/13-ngap.rs:3553-3560 -/
def PDUSessionResourceFailedToSetupItemHOAck : Ty := .sequence true 1 (.required false PDUSessionID (.required false OCTET_STRING_40 (.optional 0 PDUSessionResourceFailedToSetupItemHOAckIE_Extensions .nil)))
/-- examples/tests/13-ngap.rs:3602-3611 -/
def PDUSessionResourceFailedToSetupListHOAck : Ty := .sequenceOf (some 1) (some 256) false PDUSessionResourceFailedToSetupItemHOAck
/-- examples/tests/13-ngap.rs:10997-10999 -/
def PDUSessionResourceAdmittedItemIE_Extensions_Entry : Ty := .sequence false 0 .nil
/-- examples/tests/13-ngap.rs:11001-11010 -/
def PDUSessionResourceAdmittedItemIE_Extensions : Ty := .sequenceOf (some 1) (some 65535) false PDUSessionResourceAdmittedItemIE_Extensions_Entry
/-- examples/tests/13-ngap.rs:10993-10995 -/
def OCTET_STRING_35 : Ty := .octetstring none none false
/-- examples/tests/13-ngap.rs:3437-3444 -/
def PDUSessionResourceAdmittedItem : Ty := .sequence true 1 (.required false PDUSessionID (.required false OCTET_STRING_35 (.optional 0 PDUSessionResourceAdmittedItemIE_Extensions .nil)))
/-- examples/tests/13-ngap.rs:3446-3453 -/
def PDUSessionResourceAdmittedList : Ty := .sequenceOf (some 1) (some 256) false PDUSessionResourceAdmittedItem
/-- examples/tests/13-ngap.rs:9443-9458 -/
def HandoverRequestAcknowledgeProtocolIEs_EntryValue : Ty := .openType (.cons 10 false AMF_UE_NGAP_ID (.cons 19 false CriticalityDiagnostics (.cons 53 false PDUSessionResourceAdmittedList (.cons 56 false PDUSessionResourceFailedToSetupListHOAck (.cons 85 false RAN_UE_NGAP_ID (.cons 106 false TargetToSource_TransparentContainer .nil))))))
/-- examples/tests/13-ngap.rs:9460-9467 -/
def HandoverRequestAcknowledgeProtocolIEs_Entry : Ty := .sequence false 0 (.required true ProtocolIE_ID (.required false Criticality (.required false HandoverRequestAcknowledgeProtocolIEs_EntryValue .nil)))
/-- examples/tests/13-ngap.rs:9469-9478 -/
def HandoverRequestAcknowledgeProtocolIEs : Ty := .sequenceOf (some 0) (some 65535) false HandoverRequestAcknowledgeProtocolIEs_Entry
/-- examples/tests/13-ngap.rs:2158-2162 -/
def HandoverRequestAcknowledge : Ty := .sequence true 0 (.required false HandoverRequestAcknowledgeProtocolIEs .nil)
/-- examples/tests/13-ngap.rs:13609-13611 -/
def RedundantPDUSessionInformationIE_Extensions_Entry : Ty := .sequence false 0 .nil
/-- examples/tests/13-ngap.rs:13613-13622 -/
def RedundantPDUSessionInformationIE_Extensions : Ty := .sequenceOf (some 1) (some 65535) false RedundantPDUSessionInformationIE_Extensions_Entry
/-- examples/tests/13-ngap.rs:5106-5108 -/
def RSN : Ty := .enumerated .u8 (some 0) (some 1) true
/-- examples/tests/13-ngap.rs:5179-5185 -/
def RedundantPDUSessionInformation : Ty := .sequence true 1 (.required false RSN (.optional 0 RedundantPDUSessionInformationIE_Extensions .nil))
/-- examples/tests/13-ngap.rs:9480-9497 -/
def HandoverRequestAcknowledgeTransferIE_Extensions_EntryExtensionValue : Ty := .openType (.cons 153 false AdditionalDLUPTNLInformationForHOList (.cons 172 false UPTransportLayerInformationList (.cons 249 false DataForwardingResponseERABList (.cons 27 false GlobalRANNodeID (.cons 192 false UPTransportLayerInformation (.cons 164 false UPTransportLayerInformation (.cons 198 false RedundantPDUSessionInformation .nil)))))))
/-- examples/tests/13-ngap.rs:9499-9506 -/
def HandoverRequestAcknowledgeTransferIE_Extensions_Entry : Ty := .sequence false 0 (.required true ProtocolExtensionID (.required false Criticality (.required false HandoverRequestAcknowledgeTransferIE_Extensions_EntryExtensionValue .nil)))
/-- examples/tests/13-ngap.rs:9508-9517 -/
def HandoverRequestAcknowledgeTransferIE_Extensions : Ty := .sequenceOf (some 1) (some 65535) false HandoverRequestAcknowledgeTransferIE_Extensions_Entry
/-- examples/tests/13-ngap.rs:13299-13301 -/
def QosFlowWithCauseItemIE_Extensions_Entry : Ty := .sequence false 0 .nil
/-- examples/tests/13-ngap.rs:13303-13310 -/
def QosFlowWithCauseItemIE_Extensions : Ty := .sequenceOf (some 1) (some 65535) false QosFlowWithCauseItemIE_Extensions_Entry
/-- examples/tests/13-ngap.rs:4927-4934 -/
def QosFlowWithCauseItem : Ty := .sequence true 1 (.required false QosFlowIdentifier (.required false Cause (.optional 0 QosFlowWithCauseItemIE_Extensions .nil)))
/-- examples/tests/13-ngap.rs:4832-4834 -/
def QosFlowListWithCause : Ty := .sequenceOf (some 1) (some 64) false QosFlowWithCauseItem
/-- examples/tests/13-ngap.rs:13892-13894 -/
def SecurityResultIE_Extensions_Entry : Ty := .sequence false 0 .nil
/-- examples/tests/13-ngap.rs:13896-13903 -/
def SecurityResultIE_Extensions : Ty := .sequenceOf (some 1) (some 65535) false SecurityResultIE_Extensions_Entry
/-- examples/tests/13-ngap.rs:2336-2338 -/
def IntegrityProtectionResult : Ty := .enumerated .u8 (some 0) (some 1) true
/-- examples/tests/13-ngap.rs:5458-5465 -/
def SecurityResult : Ty := .sequence true 1 (.required false IntegrityProtectionResult (.required false ConfidentialityProtectionResult (.optional 0 SecurityResultIE_Extensions .nil)))
/-- examples/tests/13-ngap.rs:2164-2179 -/
def HandoverRequestAcknowledgeTransfer : Ty := .sequence true 5 (.required false UPTransportLayerInformation (.optional 0 UPTransportLayerInformation (.optional 1 SecurityResult (.required false QosFlowListWithDataForwarding (.optional 2 QosFlowListWithCause (.optional 3 DataForwardingResponseDRBList (.optional 4 HandoverRequestAcknowledgeTransferIE_Extensions .nil)))))))
/-- examples/tests/13-ngap.rs:14406-14408 -/
def TargetRNC_IDIE_Extensions_Entry : Ty := .sequence false 0 .nil
/-- examples/tests/13-ngap.rs:14410-14417 -/
def TargetRNC_IDIE_Extensions : Ty := .sequenceOf (some 1) (some 65535) false TargetRNC_IDIE_Extensions_Entry
/-- examples/tests/13-ngap.rs:5059-5061 -/
def RNC_ID : Ty := .integer .u16 (some 0) (some 4095) false
/-- examples/tests/13-ngap.rs:10114-10116 -/
def LAIIE_Extensions_Entry : Ty := .sequence false 0 .nil
/-- examples/tests/13-ngap.rs:10118-10125 -/
def LAIIE_Extensions : Ty := .sequenceOf (some 1) (some 65535) false LAIIE_Extensions_Entry
/-- examples/tests/13-ngap.rs:2449-2451 -/
def LAC : Ty := .octetstring (some 2) (some 2) false
/-- examples/tests/13-ngap.rs:2453-2460 -/
def LAI : Ty := .sequence true 1 (.required false PLMNIdentity (.required false LAC (.optional 0 LAIIE_Extensions .nil)))
/-- examples/tests/13-ngap.rs:5945-5954 -/
def TargetRNC_ID : Ty := .sequence true 2 (.required false LAI (.required false RNC_ID (.optional 0 ExtendedRNC_ID (.optional 1 TargetRNC_IDIE_Extensions .nil))))
/-- examples/tests/13-ngap.rs:14334-14339 -/
def TargetIDchoice_ExtensionsValue : Ty := .openType (.cons 178 false TargetRNC_ID .nil)
/-- examples/tests/13-ngap.rs:14341-14348 -/
def TargetIDchoice_Extensions : Ty := .sequence false 0 (.required true ProtocolIE_ID (.required false Criticality (.required false TargetIDchoice_ExtensionsValue .nil)))
/-- examples/tests/13-ngap.rs:14419-14421 -/
def TargeteNB_IDIE_Extensions_Entry : Ty := .sequence false 0 .nil
/-- examples/tests/13-ngap.rs:14423-14430 -/
def TargeteNB_IDIE_Extensions : Ty := .sequenceOf (some 1) (some 65535) false TargeteNB_IDIE_Extensions_Entry
/-- examples/tests/13-ngap.rs:5960-5967 -/
def TargeteNB_ID : Ty := .sequence true 1 (.required false GlobalNgENB_ID (.required false EPS_TAI (.optional 0 TargeteNB_IDIE_Extensions .nil)))
/-- examples/tests/13-ngap.rs:5908-5917 -/
def TargetID : Ty := .choice 0 2 false (.cons 0 false TargetRANNodeID (.cons 1 false TargeteNB_ID (.cons 2 false TargetIDchoice_Extensions .nil)))
/-- examples/tests/13-ngap.rs:11252-11254 -/
def PDUSessionResourceItemHORqdIE_Extensions_Entry : Ty := .sequence false 0 .nil
/-- examples/tests/13-ngap.rs:11256-11265 -/
def PDUSessionResourceItemHORqdIE_Extensions : Ty := .sequenceOf (some 1) (some 65535) false PDUSessionResourceItemHORqdIE_Extensions_Entry
/-- examples/tests/13-ngap.rs:11248-11250 -/
def OCTET_STRING_44 : Ty := .octetstring none none false
/-- examples/tests/13-ngap.rs:3689-3696 -/
def PDUSessionResourceItemHORqd : Ty := .sequence true 1 (.required false PDUSessionID (.required false OCTET_STRING_44 (.optional 0 PDUSessionResourceItemHORqdIE_Extensions .nil)))
/-- examples/tests/13-ngap.rs:3716-3723 -/
def PDUSessionResourceListHORqd : Ty := .sequenceOf (some 1) (some 256) false PDUSessionResourceItemHORqd
/-- examples/tests/13-ngap.rs:9519-9538 -/
def HandoverRequiredProtocolIEs_EntryValue : Ty := .openType (.cons 10 false AMF_UE_NGAP_ID (.cons 15 false Cause (.cons 22 false DirectForwardingPathAvailability (.cons 29 false HandoverType (.cons 61 false PDUSessionResourceListHORqd (.cons 85 false RAN_UE_NGAP_ID (.cons 101 false SourceToTarget_TransparentContainer (.cons 105 false TargetID .nil))))))))
/-- examples/tests/13-ngap.rs:9540-9547 -/
def HandoverRequiredProtocolIEs_Entry : Ty := .sequence false 0 (.required true ProtocolIE_ID (.required false Criticality (.required false HandoverRequiredProtocolIEs_EntryValue .nil)))
/-- examples/tests/13-ngap.rs:9549-9556 -/
def HandoverRequiredProtocolIEs : Ty := .sequenceOf (some 0) (some 65535) false HandoverRequiredProtocolIEs_Entry
/-- examples/tests/13-ngap.rs:2181-2185 -/
def HandoverRequired : Ty := .sequence true 0 (.required false HandoverRequiredProtocolIEs .nil)
/-- examples/tests/13-ngap.rs:9558-9560 -/
def HandoverRequiredTransferIE_Extensions_Entry : Ty := .sequence false 0 .nil
/-- examples/tests/13-ngap.rs:9562-9571 -/
def HandoverRequiredTransferIE_Extensions : Ty := .sequenceOf (some 1) (some 65535) false HandoverRequiredTransferIE_Extensions_Entry
/-- examples/tests/13-ngap.rs:2187-2194 -/
def HandoverRequiredTransfer : Ty := .sequence true 2 (.optional 0 DirectForwardingPathAvailability (.optional 1 HandoverRequiredTransferIE_Extensions .nil))
/-- examples/tests/13-ngap.rs:9573-9575 -/
def HandoverResourceAllocationUnsuccessfulTransferIE_Extensions_Entry : Ty := .sequence false 0 .nil
/-- examples/tests/13-ngap.rs:9577-9586 -/
def HandoverResourceAllocationUnsuccessfulTransferIE_Extensions : Ty := .sequenceOf (some 1) (some 65535) false HandoverResourceAllocationUnsuccessfulTransferIE_Extensions_Entry
/-- examples/tests/13-ngap.rs:2196-2204 -/
def HandoverResourceAllocationUnsuccessfulTransfer : Ty := .sequence true 2 (.required false Cause (.optional 0 CriticalityDiagnostics (.optional 1 HandoverResourceAllocationUnsuccessfulTransferIE_Extensions .nil)))
/-- examples/tests/13-ngap.rs:9588-9595 -/
def HandoverSuccessProtocolIEs_EntryValue : Ty := .openType (.cons 10 false AMF_UE_NGAP_ID (.cons 85 false RAN_UE_NGAP_ID .nil))
/-- examples/tests/13-ngap.rs:9597-9604 -/
def HandoverSuccessProtocolIEs_Entry : Ty := .sequence false 0 (.required true ProtocolIE_ID (.required false Criticality (.required false HandoverSuccessProtocolIEs_EntryValue .nil)))
/-- examples/tests/13-ngap.rs:9606-9613 -/
def HandoverSuccessProtocolIEs : Ty := .sequenceOf (some 0) (some 65535) false HandoverSuccessProtocolIEs_Entry
/-- examples/tests/13-ngap.rs:2206-2210 -/
def HandoverSuccess : Ty := .sequence true 0 (.required false HandoverSuccessProtocolIEs .nil)
/-- examples/tests/13-ngap.rs:2233-2235 -/
def IAB_Supported : Ty := .enumerated .u8 (some 0) (some 0) true
/-- examples/tests/13-ngap.rs:2240-2242 -/
def IABNodeIndication : Ty := .enumerated .u8 (some 0) (some 0) true
/-- examples/tests/13-ngap.rs:2247-2249 -/
def IMSVoiceSupportIndicator : Ty := .enumerated .u8 (some 0) (some 1) true
/-- examples/tests/13-ngap.rs:9628-9630 -/
def InfoOnRecommendedCellsAndRANNodesForPagingIE_Extensions_Entry : Ty := .sequence false 0 .nil
/-- examples/tests/13-ngap.rs:9632-9641 -/
def InfoOnRecommendedCellsAndRANNodesForPagingIE_Extensions : Ty := .sequenceOf (some 1) (some 65535) false InfoOnRecommendedCellsAndRANNodesForPagingIE_Extensions_Entry
/-- examples/tests/13-ngap.rs:13594-13596 -/
def RecommendedRANNodesForPagingIE_Extensions_Entry : Ty := .sequence false 0 .nil
/-- examples/tests/13-ngap.rs:13598-13607 -/
def RecommendedRANNodesForPagingIE_Extensions : Ty := .sequenceOf (some 1) (some 65535) false RecommendedRANNodesForPagingIE_Extensions_Entry
/-- examples/tests/13-ngap.rs:13581-13583 -/
def RecommendedRANNodeItemIE_Extensions_Entry : Ty := .sequence false 0 .nil
/-- examples/tests/13-ngap.rs:13585-13592 -/
def RecommendedRANNodeItemIE_Extensions : Ty := .sequenceOf (some 1) (some 65535) false RecommendedRANNodeItemIE_Extensions_Entry
/-- examples/tests/13-ngap.rs:5151-5157 -/
def RecommendedRANNodeItem : Ty := .sequence true 1 (.required false AMFPagingTarget (.optional 0 RecommendedRANNodeItemIE_Extensions .nil))
/-- examples/tests/13-ngap.rs:5159-5161 -/
def RecommendedRANNodeList : Ty := .sequenceOf (some 1) (some 16) false RecommendedRANNodeItem
/-- examples/tests/13-ngap.rs:5163-5169 -/
def RecommendedRANNodesForPaging : Ty := .sequence true 1 (.required false RecommendedRANNodeList (.optional 0 RecommendedRANNodesForPagingIE_Extensions .nil))
/-- examples/tests/13-ngap.rs:2285-2292 -/
def InfoOnRecommendedCellsAndRANNodesForPaging : Ty := .sequence true 1 (.required false RecommendedCellsForPaging (.required false RecommendedRANNodesForPaging (.optional 0 InfoOnRecommendedCellsAndRANNodesForPagingIE_Extensions .nil)))
/-- examples/tests/13-ngap.rs:11084-11086 -/
def PDUSessionResourceFailedToSetupItemCxtFailIE_Extensions_Entry : Ty := .sequence false 0 .nil
/-- examples/tests/13-ngap.rs:11088-11097 -/
def PDUSessionResourceFailedToSetupItemCxtFailIE_Extensions : Ty := .sequenceOf (some 1) (some 65535) false PDUSessionResourceFailedToSetupItemCxtFailIE_Extensions_Entry
/-- examples/tests/13-ngap.rs:11080-11082 -/
def OCTET_STRING_38 : Ty := .octetstring none none false
/-- examples/tests/13-ngap.rs:3535-3542 -/
def PDUSessionResourceFailedToSetupItemCxtFail : Ty := .sequence true 1 (.required false PDUSessionID (.required false OCTET_STRING_38 (.optional 0 PDUSessionResourceFailedToSetupItemCxtFailIE_Extensions .nil)))
/-- examples/tests/13-ngap.rs:3580-3589 -/
def PDUSessionResourceFailedToSetupListCxtFail : Ty := .sequenceOf (some 1) (some 256) false PDUSessionResourceFailedToSetupItemCxtFail
/-- examples/tests/13-ngap.rs:9643-9656 -/
def InitialContextSetupFailureProtocolIEs_EntryValue : Ty := .openType (.cons 10 false AMF_UE_NGAP_ID (.cons 15 false Cause (.cons 19 false CriticalityDiagnostics (.cons 132 false PDUSessionResourceFailedToSetupListCxtFail (.cons 85 false RAN_UE_NGAP_ID .nil)))))
/-- examples/tests/13-ngap.rs:9658-9665 -/
def InitialContextSetupFailureProtocolIEs_Entry : Ty := .sequence false 0 (.required true ProtocolIE_ID (.required false Criticality (.required false InitialContextSetupFailureProtocolIEs_EntryValue .nil)))
/-- examples/tests/13-ngap.rs:9667-9676 -/
def InitialContextSetupFailureProtocolIEs : Ty := .sequenceOf (some 0) (some 65535) false InitialContextSetupFailureProtocolIEs_Entry
/-- examples/tests/13-ngap.rs:2294-2298 -/
def InitialContextSetupFailure : Ty := .sequence true 0 (.required false InitialContextSetupFailureProtocolIEs .nil)
/-- examples/tests/13-ngap.rs:5036-5038 -/
def RGLevelWirelineAccessCharacteristics : Ty := .octetstring none none false
/-- examples/tests/13-ngap.rs:12027-12029 -/
def PDUSessionResourceSetupItemCxtReqIE_Extensions_Entry : Ty := .sequence false 0 .nil
/-- examples/tests/13-ngap.rs:12031-12040 -/
def PDUSessionResourceSetupItemCxtReqIE_Extensions : Ty := .sequenceOf (some 1) (some 65535) false PDUSessionResourceSetupItemCxtReqIE_Extensions_Entry
/-- examples/tests/13-ngap.rs:12023-12025 -/
def OCTET_STRING_57 : Ty := .octetstring none none false
/-- examples/tests/13-ngap.rs:4085-4095 -/
def PDUSessionResourceSetupItemCxtReq : Ty := .sequence true 2 (.required false PDUSessionID (.optional 0 NAS_PDU (.required false S_NSSAI (.required false OCTET_STRING_57 (.optional 1 PDUSessionResourceSetupItemCxtReqIE_Extensions .nil)))))
/-- examples/tests/13-ngap.rs:4137-4144 -/
def PDUSessionResourceSetupListCxtReq : Ty := .sequenceOf (some 1) (some 256) false PDUSessionResourceSetupItemCxtReq
/-- examples/tests/13-ngap.rs:9678-9755 -/
def InitialContextSetupRequestProtocolIEs_EntryValue : Ty := .openType (.cons 10 false AMF_UE_NGAP_ID (.cons 0 false AllowedNSSAI (.cons 222 false CEmodeBrestricted (.cons 165 false CNAssistedRANTuning (.cons 18 false CoreNetworkAssistanceInformationForInactive (.cons 24 false EmergencyFallbackIndicator (.cons 205 false Enhanced_CoverageRestriction (.cons 206 false Extended_ConnectedTime (.cons 28 false GUAMI (.cons 199 false IAB_Authorized (.cons 31 false IndexToRFSP (.cons 217 false LTEUESidelinkAggregateMaximumBitrate (.cons 215 false LTEV2XServicesAuthorized (.cons 33 false LocationReportingRequestType (.cons 254 false MDTPLMNList (.cons 34 false MaskedIMEISV (.cons 36 false MobilityRestrictionList (.cons 38 false NAS_PDU (.cons 218 false NRUESidelinkAggregateMaximumBitrate (.cons 216 false NRV2XServicesAuthorized (.cons 48 false AMFName (.cons 219 false PC5QoSParameters (.cons 71 false PDUSessionResourceSetupListCxtReq (.cons 85 false RAN_UE_NGAP_ID (.cons 238 false RGLevelWirelineAccessCharacteristics (.cons 91 false RRCInactiveTransitionReportRequest (.cons 146 false RedirectionVoiceFallback (.cons 177 false SRVCCOperationPossible (.cons 94 false SecurityKey (.cons 108 false TraceActivation (.cons 209 false UE_DifferentiationInfo (.cons 234 false UE_UP_CIoT_Support (.cons 110 false UEAggregateMaximumBitRate (.cons 117 false UERadioCapability (.cons 118 false UERadioCapabilityForPaging (.cons 264 false UERadioCapabilityID (.cons 119 false UESecurityCapabilities .nil)))))))))))))))))))))))))))))))))))))
/-- examples/tests/13-ngap.rs:9757-9764 -/
def InitialContextSetupRequestProtocolIEs_Entry : Ty := .sequence false 0 (.required true ProtocolIE_ID (.required false Criticality (.required false InitialContextSetupRequestProtocolIEs_EntryValue .nil)))
/-- examples/tests/13-ngap.rs:9766-9775 -/
def InitialContextSetupRequestProtocolIEs : Ty := .sequenceOf (some 0) (some 65535) false InitialContextSetupRequestProtocolIEs_Entry
/-- examples/tests/13-ngap.rs:2300-2304 -/
def InitialContextSetupRequest : Ty := .sequence true 0 (.required false InitialContextSetupRequestProtocolIEs .nil)
/-- examples/tests/13-ngap.rs:12046-12048 -/
def PDUSessionResourceSetupItemCxtResIE_Extensions_Entry : Ty := .sequence false 0 .nil
/-- examples/tests/13-ngap.rs:12050-12059 -/
def PDUSessionResourceSetupItemCxtResIE_Extensions : Ty := .sequenceOf (some 1) (some 65535) false PDUSessionResourceSetupItemCxtResIE_Extensions_Entry
/-- examples/tests/13-ngap.rs:12042-12044 -/
def OCTET_STRING_58 : Ty := .octetstring none none false
/-- examples/tests/13-ngap.rs:4097-4104 -/
def PDUSessionResourceSetupItemCxtRes : Ty := .sequence true 1 (.required false PDUSessionID (.required false OCTET_STRING_58 (.optional 0 PDUSessionResourceSetupItemCxtResIE_Extensions .nil)))
/-- examples/tests/13-ngap.rs:4146-4153 -/
def PDUSessionResourceSetupListCxtRes : Ty := .sequenceOf (some 1) (some 256) false PDUSessionResourceSetupItemCxtRes
/-- examples/tests/13-ngap.rs:11103-11105 -/
def PDUSessionResourceFailedToSetupItemCxtResIE_Extensions_Entry : Ty := .sequence false 0 .nil
/-- examples/tests/13-ngap.rs:11107-11116 -/
def PDUSessionResourceFailedToSetupItemCxtResIE_Extensions : Ty := .sequenceOf (some 1) (some 65535) false PDUSessionResourceFailedToSetupItemCxtResIE_Extensions_Entry
/-- examples/tests/13-ngap.rs:11099-11101 -/
def OCTET_STRING_39 : Ty := .octetstring none none false
/-- examples/tests/13-ngap.rs:3544-3551 -/
def PDUSessionResourceFailedToSetupItemCxtRes : Ty := .sequence true 1 (.required false PDUSessionID (.required false OCTET_STRING_39 (.optional 0 PDUSessionResourceFailedToSetupItemCxtResIE_Extensions .nil)))
/-- examples/tests/13-ngap.rs:3591-3600 -/
def PDUSessionResourceFailedToSetupListCxtRes : Ty := .sequenceOf (some 1) (some 256) false PDUSessionResourceFailedToSetupItemCxtRes
/-- examples/tests/13-ngap.rs:9777-9790 -/
def InitialContextSetupResponseProtocolIEs_EntryValue : Ty := .openType (.cons 10 false AMF_UE_NGAP_ID (.cons 19 false CriticalityDiagnostics (.cons 55 false PDUSessionResourceFailedToSetupListCxtRes (.cons 72 false PDUSessionResourceSetupListCxtRes (.cons 85 false RAN_UE_NGAP_ID .nil)))))
/-- examples/tests/13-ngap.rs:9792-9799 -/
def InitialContextSetupResponseProtocolIEs_Entry : Ty := .sequence false 0 (.required true ProtocolIE_ID (.required false Criticality (.required false InitialContextSetupResponseProtocolIEs_EntryValue .nil)))
/-- examples/tests/13-ngap.rs:9801-9810 -/
def InitialContextSetupResponseProtocolIEs : Ty := .sequenceOf (some 0) (some 65535) false InitialContextSetupResponseProtocolIEs_Entry
/-- examples/tests/13-ngap.rs:2306-2310 -/
def InitialContextSetupResponse : Ty := .sequence true 0 (.required false InitialContextSetupResponseProtocolIEs .nil)
/-- examples/tests/13-ngap.rs:6227-6229 -/
def UEContextRequest : Ty := .enumerated .u8 (some 0) (some 0) true
/-- examples/tests/13-ngap.rs:14069-14071 -/
def SourceToTarget_AMFInformationRerouteIE_Extensions_Entry : Ty := .sequence false 0 .nil
/-- examples/tests/13-ngap.rs:14073-14082 -/
def SourceToTarget_AMFInformationRerouteIE_Extensions : Ty := .sequenceOf (some 1) (some 65535) false SourceToTarget_AMFInformationRerouteIE_Extensions_Entry
/-- examples/tests/13-ngap.rs:5211-5218 -/
def RejectedNSSAIinTA : Ty := .octetstring (some 32) (some 32) false
/-- examples/tests/13-ngap.rs:5202-5209 -/
def RejectedNSSAIinPLMN : Ty := .octetstring (some 32) (some 32) false
/-- examples/tests/13-ngap.rs:5619-5630 -/
def SourceToTarget_AMFInformationReroute : Ty := .sequence true 4 (.optional 0 ConfiguredNSSAI (.optional 1 RejectedNSSAIinPLMN (.optional 2 RejectedNSSAIinTA (.optional 3 SourceToTarget_AMFInformationRerouteIE_Extensions .nil))))
/-- examples/tests/13-ngap.rs:5067-5069 -/
def RRCEstablishmentCause : Ty := .enumerated .u8 (some 0) (some 9) true
/-- examples/tests/13-ngap.rs:10750-10752 -/
def NPN_AccessInformationchoice_Extensions : Ty := .sequence false 0 .nil
/-- examples/tests/13-ngap.rs:3103-3110 -/
def NPN_AccessInformation : Ty := .choice 0 1 false (.cons 0 false CellCAGList (.cons 1 false NPN_AccessInformationchoice_Extensions .nil))
/-- examples/tests/13-ngap.rs:2462-2464 -/
def LTEM_Indication : Ty := .enumerated .u8 (some 0) (some 0) true
/-- examples/tests/13-ngap.rs:9812-9847 -/
def InitialUEMessageProtocolIEs_EntryValue : Ty := .openType (.cons 3 false AMFSetID (.cons 0 false AllowedNSSAI (.cons 245 false AuthenticatedIndication (.cons 224 false CEmodeBSupport_Indicator (.cons 227 false EDT_Session (.cons 26 false FiveG_S_TMSI (.cons 201 false IABNodeIndication (.cons 225 false LTEM_Indication (.cons 38 false NAS_PDU (.cons 259 false NPN_AccessInformation (.cons 85 false RAN_UE_NGAP_ID (.cons 90 false RRCEstablishmentCause (.cons 174 false PLMNIdentity (.cons 171 false SourceToTarget_AMFInformationReroute (.cons 112 false UEContextRequest (.cons 121 false UserLocationInformation .nil))))))))))))))))
/-- examples/tests/13-ngap.rs:9849-9856 -/
def InitialUEMessageProtocolIEs_Entry : Ty := .sequence false 0 (.required true ProtocolIE_ID (.required false Criticality (.required false InitialUEMessageProtocolIEs_EntryValue .nil)))
/-- examples/tests/13-ngap.rs:9858-9865 -/
def InitialUEMessageProtocolIEs : Ty := .sequenceOf (some 0) (some 65535) false InitialUEMessageProtocolIEs_Entry
/-- examples/tests/13-ngap.rs:2312-2316 -/
def InitialUEMessage : Ty := .sequence true 0 (.required false InitialUEMessageProtocolIEs .nil)
/-- examples/tests/13-ngap.rs:6813-6815 -/
def WarningType : Ty := .octetstring (some 2) (some 2) false
/-- examples/tests/13-ngap.rs:6804-6811 -/
def WarningSecurityInfo : Ty := .octetstring (some 50) (some 50) false
/-- examples/tests/13-ngap.rs:6795-6802 -/
def WarningMessageContents : Ty := .octetstring (some 1) (some 9600) false
/-- examples/tests/13-ngap.rs:15982-15984 -/
def WarningAreaListchoice_Extensions : Ty := .sequence false 0 .nil
/-- examples/tests/13-ngap.rs:5818-5825 -/
def TAIListForWarning : Ty := .sequenceOf (some 1) (some 65535) false TAI
/-- examples/tests/13-ngap.rs:3159-3166 -/
def NR_CGIListForWarning : Ty := .sequenceOf (some 1) (some 65535) false NR_CGI
/-- examples/tests/13-ngap.rs:6780-6793 -/
def WarningAreaList : Ty := .choice 0 4 false (.cons 0 false EUTRA_CGIListForWarning (.cons 1 false NR_CGIListForWarning (.cons 2 false TAIListForWarning (.cons 3 false EmergencyAreaIDList (.cons 4 false WarningAreaListchoice_Extensions .nil)))))
/-- examples/tests/13-ngap.rs:6771-6778 -/
def WarningAreaCoordinates : Ty := .octetstring (some 1) (some 1024) false
/-- examples/tests/13-ngap.rs:5509-5511 -/
def SerialNumber : Ty := .bitstring (some 16) (some 16) false
/-- examples/tests/13-ngap.rs:5224-5226 -/
def RepetitionPeriod : Ty := .integer .u32 (some 0) (some 131071) false
/-- examples/tests/13-ngap.rs:3324-3326 -/
def NumberOfBroadcastsRequested : Ty := .integer .u16 (some 0) (some 65535) false
/-- examples/tests/13-ngap.rs:2904-2906 -/
def MessageIdentifier : Ty := .bitstring (some 16) (some 16) false
/-- examples/tests/13-ngap.rs:15986-16011 -/
def WriteReplaceWarningRequestProtocolIEs_EntryValue : Ty := .openType (.cons 17 false ConcurrentWarningMessageInd (.cons 20 false DataCodingScheme (.cons 35 false MessageIdentifier (.cons 47 false NumberOfBroadcastsRequested (.cons 87 false RepetitionPeriod (.cons 95 false SerialNumber (.cons 141 false WarningAreaCoordinates (.cons 122 false WarningAreaList (.cons 123 false WarningMessageContents (.cons 124 false WarningSecurityInfo (.cons 125 false WarningType .nil)))))))))))
/-- examples/tests/13-ngap.rs:16013-16020 -/
def WriteReplaceWarningRequestProtocolIEs_Entry : Ty := .sequence false 0 (.required true ProtocolIE_ID (.required false Criticality (.required false WriteReplaceWarningRequestProtocolIEs_EntryValue .nil)))
/-- examples/tests/13-ngap.rs:16022-16031 -/
def WriteReplaceWarningRequestProtocolIEs : Ty := .sequenceOf (some 0) (some 65535) false WriteReplaceWarningRequestProtocolIEs_Entry
/-- examples/tests/13-ngap.rs:6817-6821 -/
def WriteReplaceWarningRequest : Ty := .sequence true 0 (.required false WriteReplaceWarningRequestProtocolIEs .nil)
/-- examples/tests/13-ngap.rs:15703-15714 -/
def UplinkUEAssociatedNRPPaTransportProtocolIEs_EntryValue : Ty := .openType (.cons 10 false AMF_UE_NGAP_ID (.cons 46 false NRPPa_PDU (.cons 85 false RAN_UE_NGAP_ID (.cons 89 false RoutingID .nil))))
/-- examples/tests/13-ngap.rs:15716-15723 -/
def UplinkUEAssociatedNRPPaTransportProtocolIEs_Entry : Ty := .sequence false 0 (.required true ProtocolIE_ID (.required false Criticality (.required false UplinkUEAssociatedNRPPaTransportProtocolIEs_EntryValue .nil)))
/-- examples/tests/13-ngap.rs:15725-15734 -/
def UplinkUEAssociatedNRPPaTransportProtocolIEs : Ty := .sequenceOf (some 0) (some 65535) false UplinkUEAssociatedNRPPaTransportProtocolIEs_Entry
/-- examples/tests/13-ngap.rs:6597-6601 -/
def UplinkUEAssociatedNRPPaTransport : Ty := .sequence true 0 (.required false UplinkUEAssociatedNRPPaTransportProtocolIEs .nil)
/-- examples/tests/13-ngap.rs:15676-15681 -/
def UplinkRIMInformationTransferProtocolIEs_EntryValue : Ty := .openType (.cons 175 false RIMInformationTransfer .nil)
/-- examples/tests/13-ngap.rs:15683-15690 -/
def UplinkRIMInformationTransferProtocolIEs_Entry : Ty := .sequence false 0 (.required true ProtocolIE_ID (.required false Criticality (.required false UplinkRIMInformationTransferProtocolIEs_EntryValue .nil)))
/-- examples/tests/13-ngap.rs:15692-15701 -/
def UplinkRIMInformationTransferProtocolIEs : Ty := .sequenceOf (some 0) (some 65535) false UplinkRIMInformationTransferProtocolIEs_Entry
/-- examples/tests/13-ngap.rs:6591-6595 -/
def UplinkRIMInformationTransfer : Ty := .sequence true 0 (.required false UplinkRIMInformationTransferProtocolIEs .nil)
/-- examples/tests/13-ngap.rs:15647-15656 -/
def UplinkRANStatusTransferProtocolIEs_EntryValue : Ty := .openType (.cons 10 false AMF_UE_NGAP_ID (.cons 85 false RAN_UE_NGAP_ID (.cons 84 false RANStatusTransfer_TransparentContainer .nil)))
/-- examples/tests/13-ngap.rs:15658-15665 -/
def UplinkRANStatusTransferProtocolIEs_Entry : Ty := .sequence false 0 (.required true ProtocolIE_ID (.required false Criticality (.required false UplinkRANStatusTransferProtocolIEs_EntryValue .nil)))
/-- examples/tests/13-ngap.rs:15667-15674 -/
def UplinkRANStatusTransferProtocolIEs : Ty := .sequenceOf (some 0) (some 65535) false UplinkRANStatusTransferProtocolIEs_Entry
/-- examples/tests/13-ngap.rs:6585-6589 -/
def UplinkRANStatusTransfer : Ty := .sequence true 0 (.required false UplinkRANStatusTransferProtocolIEs .nil)
/-- examples/tests/13-ngap.rs:15616-15625 -/
def UplinkRANEarlyStatusTransferProtocolIEs_EntryValue : Ty := .openType (.cons 10 false AMF_UE_NGAP_ID (.cons 268 false EarlyStatusTransfer_TransparentContainer (.cons 85 false RAN_UE_NGAP_ID .nil)))
/-- examples/tests/13-ngap.rs:15627-15634 -/
def UplinkRANEarlyStatusTransferProtocolIEs_Entry : Ty := .sequence false 0 (.required true ProtocolIE_ID (.required false Criticality (.required false UplinkRANEarlyStatusTransferProtocolIEs_EntryValue .nil)))
/-- examples/tests/13-ngap.rs:15636-15645 -/
def UplinkRANEarlyStatusTransferProtocolIEs : Ty := .sequenceOf (some 0) (some 65535) false UplinkRANEarlyStatusTransferProtocolIEs_Entry
/-- examples/tests/13-ngap.rs:6579-6583 -/
def UplinkRANEarlyStatusTransfer : Ty := .sequence true 0 (.required false UplinkRANEarlyStatusTransferProtocolIEs .nil)
/-- examples/tests/13-ngap.rs:15585-15594 -/
def UplinkRANConfigurationTransferProtocolIEs_EntryValue : Ty := .openType (.cons 158 false EN_DCSONConfigurationTransfer (.cons 251 false IntersystemSONConfigurationTransfer (.cons 99 false SONConfigurationTransfer .nil)))
/-- examples/tests/13-ngap.rs:15596-15603 -/
def UplinkRANConfigurationTransferProtocolIEs_Entry : Ty := .sequence false 0 (.required true ProtocolIE_ID (.required false Criticality (.required false UplinkRANConfigurationTransferProtocolIEs_EntryValue .nil)))
/-- examples/tests/13-ngap.rs:15605-15614 -/
def UplinkRANConfigurationTransferProtocolIEs : Ty := .sequenceOf (some 0) (some 65535) false UplinkRANConfigurationTransferProtocolIEs_Entry
/-- examples/tests/13-ngap.rs:6573-6577 -/
def UplinkRANConfigurationTransfer : Ty := .sequence true 0 (.required false UplinkRANConfigurationTransferProtocolIEs .nil)
/-- examples/tests/13-ngap.rs:15556-15563 -/
def UplinkNonUEAssociatedNRPPaTransportProtocolIEs_EntryValue : Ty := .openType (.cons 46 false NRPPa_PDU (.cons 89 false RoutingID .nil))
/-- examples/tests/13-ngap.rs:15565-15572 -/
def UplinkNonUEAssociatedNRPPaTransportProtocolIEs_Entry : Ty := .sequence false 0 (.required true ProtocolIE_ID (.required false Criticality (.required false UplinkNonUEAssociatedNRPPaTransportProtocolIEs_EntryValue .nil)))
/-- examples/tests/13-ngap.rs:15574-15583 -/
def UplinkNonUEAssociatedNRPPaTransportProtocolIEs : Ty := .sequenceOf (some 0) (some 65535) false UplinkNonUEAssociatedNRPPaTransportProtocolIEs_Entry
/-- examples/tests/13-ngap.rs:6567-6571 -/
def UplinkNonUEAssociatedNRPPaTransport : Ty := .sequence true 0 (.required false UplinkNonUEAssociatedNRPPaTransportProtocolIEs .nil)
/-- examples/tests/13-ngap.rs:15525-15536 -/
def UplinkNASTransportProtocolIEs_EntryValue : Ty := .openType (.cons 10 false AMF_UE_NGAP_ID (.cons 38 false NAS_PDU (.cons 85 false RAN_UE_NGAP_ID (.cons 121 false UserLocationInformation .nil))))
/-- examples/tests/13-ngap.rs:15538-15545 -/
def UplinkNASTransportProtocolIEs_Entry : Ty := .sequence false 0 (.required true ProtocolIE_ID (.required false Criticality (.required false UplinkNASTransportProtocolIEs_EntryValue .nil)))
/-- examples/tests/13-ngap.rs:15547-15554 -/
def UplinkNASTransportProtocolIEs : Ty := .sequenceOf (some 0) (some 65535) false UplinkNASTransportProtocolIEs_Entry
/-- examples/tests/13-ngap.rs:6561-6565 -/
def UplinkNASTransport : Ty := .sequence true 0 (.required false UplinkNASTransportProtocolIEs .nil)
/-- examples/tests/13-ngap.rs:15380-15387 -/
def UETNLABindingReleaseRequestProtocolIEs_EntryValue : Ty := .openType (.cons 10 false AMF_UE_NGAP_ID (.cons 85 false RAN_UE_NGAP_ID .nil))
/-- examples/tests/13-ngap.rs:15389-15396 -/
def UETNLABindingReleaseRequestProtocolIEs_Entry : Ty := .sequence false 0 (.required true ProtocolIE_ID (.required false Criticality (.required false UETNLABindingReleaseRequestProtocolIEs_EntryValue .nil)))
/-- examples/tests/13-ngap.rs:15398-15407 -/
def UETNLABindingReleaseRequestProtocolIEs : Ty := .sequenceOf (some 0) (some 65535) false UETNLABindingReleaseRequestProtocolIEs_Entry
/-- examples/tests/13-ngap.rs:6446-6450 -/
def UETNLABindingReleaseRequest : Ty := .sequence true 0 (.required false UETNLABindingReleaseRequestProtocolIEs .nil)
/-- examples/tests/13-ngap.rs:15332-15345 -/
def UERadioCapabilityInfoIndicationProtocolIEs_EntryValue : Ty := .openType (.cons 10 false AMF_UE_NGAP_ID (.cons 85 false RAN_UE_NGAP_ID (.cons 117 false UERadioCapability (.cons 265 false UERadioCapability (.cons 118 false UERadioCapabilityForPaging .nil)))))
/-- examples/tests/13-ngap.rs:15347-15354 -/
def UERadioCapabilityInfoIndicationProtocolIEs_Entry : Ty := .sequence false 0 (.required true ProtocolIE_ID (.required false Criticality (.required false UERadioCapabilityInfoIndicationProtocolIEs_EntryValue .nil)))
/-- examples/tests/13-ngap.rs:15356-15365 -/
def UERadioCapabilityInfoIndicationProtocolIEs : Ty := .sequenceOf (some 0) (some 65535) false UERadioCapabilityInfoIndicationProtocolIEs_Entry
/-- examples/tests/13-ngap.rs:6422-6426 -/
def UERadioCapabilityInfoIndication : Ty := .sequence true 0 (.required false UERadioCapabilityInfoIndicationProtocolIEs .nil)
/-- examples/tests/13-ngap.rs:15274-15279 -/
def UERadioCapabilityIDMappingRequestProtocolIEs_EntryValue : Ty := .openType (.cons 264 false UERadioCapabilityID .nil)
/-- examples/tests/13-ngap.rs:15281-15288 -/
def UERadioCapabilityIDMappingRequestProtocolIEs_Entry : Ty := .sequence false 0 (.required true ProtocolIE_ID (.required false Criticality (.required false UERadioCapabilityIDMappingRequestProtocolIEs_EntryValue .nil)))
/-- examples/tests/13-ngap.rs:15290-15299 -/
def UERadioCapabilityIDMappingRequestProtocolIEs : Ty := .sequenceOf (some 0) (some 65535) false UERadioCapabilityIDMappingRequestProtocolIEs_Entry
/-- examples/tests/13-ngap.rs:6410-6414 -/
def UERadioCapabilityIDMappingRequest : Ty := .sequence true 0 (.required false UERadioCapabilityIDMappingRequestProtocolIEs .nil)
/-- examples/tests/13-ngap.rs:15181-15192 -/
def UERadioCapabilityCheckRequestProtocolIEs_EntryValue : Ty := .openType (.cons 10 false AMF_UE_NGAP_ID (.cons 85 false RAN_UE_NGAP_ID (.cons 117 false UERadioCapability (.cons 264 false UERadioCapabilityID .nil))))
/-- examples/tests/13-ngap.rs:15194-15201 -/
def UERadioCapabilityCheckRequestProtocolIEs_Entry : Ty := .sequence false 0 (.required true ProtocolIE_ID (.required false Criticality (.required false UERadioCapabilityCheckRequestProtocolIEs_EntryValue .nil)))
/-- examples/tests/13-ngap.rs:15203-15212 -/
def UERadioCapabilityCheckRequestProtocolIEs : Ty := .sequenceOf (some 0) (some 65535) false UERadioCapabilityCheckRequestProtocolIEs_Entry
/-- examples/tests/13-ngap.rs:6371-6375 -/
def UERadioCapabilityCheckRequest : Ty := .sequence true 0 (.required false UERadioCapabilityCheckRequestProtocolIEs .nil)
/-- examples/tests/13-ngap.rs:15123-15138 -/
def UEInformationTransferProtocolIEs_EntryValue : Ty := .openType (.cons 0 false AllowedNSSAI (.cons 26 false FiveG_S_TMSI (.cons 210 false NB_IoT_UEPriority (.cons 148 false S_NSSAI (.cons 209 false UE_DifferentiationInfo (.cons 117 false UERadioCapability .nil))))))
/-- examples/tests/13-ngap.rs:15140-15147 -/
def UEInformationTransferProtocolIEs_Entry : Ty := .sequence false 0 (.required true ProtocolIE_ID (.required false Criticality (.required false UEInformationTransferProtocolIEs_EntryValue .nil)))
/-- examples/tests/13-ngap.rs:15149-15156 -/
def UEInformationTransferProtocolIEs : Ty := .sequenceOf (some 0) (some 65535) false UEInformationTransferProtocolIEs_Entry
/-- examples/tests/13-ngap.rs:6319-6323 -/
def UEInformationTransfer : Ty := .sequence true 0 (.required false UEInformationTransferProtocolIEs .nil)
/-- examples/tests/13-ngap.rs:12295-12297 -/
def PDUSessionResourceSuspendItemSUSReqIE_Extensions_Entry : Ty := .sequence false 0 .nil
/-- examples/tests/13-ngap.rs:12299-12308 -/
def PDUSessionResourceSuspendItemSUSReqIE_Extensions : Ty := .sequenceOf (some 1) (some 65535) false PDUSessionResourceSuspendItemSUSReqIE_Extensions_Entry
/-- examples/tests/13-ngap.rs:12291-12293 -/
def OCTET_STRING_62 : Ty := .octetstring none none false
/-- examples/tests/13-ngap.rs:4224-4231 -/
def PDUSessionResourceSuspendItemSUSReq : Ty := .sequence true 1 (.required false PDUSessionID (.required false OCTET_STRING_62 (.optional 0 PDUSessionResourceSuspendItemSUSReqIE_Extensions .nil)))
/-- examples/tests/13-ngap.rs:4233-4240 -/
def PDUSessionResourceSuspendListSUSReq : Ty := .sequenceOf (some 1) (some 256) false PDUSessionResourceSuspendItemSUSReq
/-- examples/tests/13-ngap.rs:15032-15045 -/
def UEContextSuspendRequestProtocolIEs_EntryValue : Ty := .openType (.cons 10 false AMF_UE_NGAP_ID (.cons 32 false InfoOnRecommendedCellsAndRANNodesForPaging (.cons 231 false PDUSessionResourceSuspendListSUSReq (.cons 207 false PagingAssisDataforCEcapabUE (.cons 85 false RAN_UE_NGAP_ID .nil)))))
/-- examples/tests/13-ngap.rs:15047-15054 -/
def UEContextSuspendRequestProtocolIEs_Entry : Ty := .sequence false 0 (.required true ProtocolIE_ID (.required false Criticality (.required false UEContextSuspendRequestProtocolIEs_EntryValue .nil)))
/-- examples/tests/13-ngap.rs:15056-15063 -/
def UEContextSuspendRequestProtocolIEs : Ty := .sequenceOf (some 0) (some 65535) false UEContextSuspendRequestProtocolIEs_Entry
/-- examples/tests/13-ngap.rs:6276-6280 -/
def UEContextSuspendRequest : Ty := .sequence true 0 (.required false UEContextSuspendRequestProtocolIEs .nil)
/-- examples/tests/13-ngap.rs:5663-5665 -/
def Suspend_Request_Indication : Ty := .enumerated .u8 (some 0) (some 0) true
/-- examples/tests/13-ngap.rs:11970-11972 -/
def PDUSessionResourceResumeItemRESReqIE_Extensions_Entry : Ty := .sequence false 0 .nil
/-- examples/tests/13-ngap.rs:11974-11983 -/
def PDUSessionResourceResumeItemRESReqIE_Extensions : Ty := .sequenceOf (some 1) (some 65535) false PDUSessionResourceResumeItemRESReqIE_Extensions_Entry
/-- examples/tests/13-ngap.rs:11966-11968 -/
def OCTET_STRING_54 : Ty := .octetstring none none false
/-- examples/tests/13-ngap.rs:4029-4036 -/
def PDUSessionResourceResumeItemRESReq : Ty := .sequence true 1 (.required false PDUSessionID (.required false OCTET_STRING_54 (.optional 0 PDUSessionResourceResumeItemRESReqIE_Extensions .nil)))
/-- examples/tests/13-ngap.rs:4047-4054 -/
def PDUSessionResourceResumeListRESReq : Ty := .sequenceOf (some 1) (some 256) false PDUSessionResourceResumeItemRESReq
/-- examples/tests/13-ngap.rs:11050-11052 -/
def PDUSessionResourceFailedToResumeItemRESReqIE_Extensions_Entry : Ty := .sequence false 0 .nil
/-- examples/tests/13-ngap.rs:11054-11063 -/
def PDUSessionResourceFailedToResumeItemRESReqIE_Extensions : Ty := .sequenceOf (some 1) (some 65535) false PDUSessionResourceFailedToResumeItemRESReqIE_Extensions_Entry
/-- examples/tests/13-ngap.rs:3495-3502 -/
def PDUSessionResourceFailedToResumeItemRESReq : Ty := .sequence true 1 (.required false PDUSessionID (.required false Cause (.optional 0 PDUSessionResourceFailedToResumeItemRESReqIE_Extensions .nil)))
/-- examples/tests/13-ngap.rs:3513-3522 -/
def PDUSessionResourceFailedToResumeListRESReq : Ty := .sequenceOf (some 1) (some 256) false PDUSessionResourceFailedToResumeItemRESReq
/-- examples/tests/13-ngap.rs:14893-14912 -/
def UEContextResumeRequestProtocolIEs_EntryValue : Ty := .openType (.cons 10 false AMF_UE_NGAP_ID (.cons 32 false InfoOnRecommendedCellsAndRANNodesForPaging (.cons 229 false PDUSessionResourceFailedToResumeListRESReq (.cons 232 false PDUSessionResourceResumeListRESReq (.cons 207 false PagingAssisDataforCEcapabUE (.cons 85 false RAN_UE_NGAP_ID (.cons 237 false RRCEstablishmentCause (.cons 235 false Suspend_Request_Indication .nil))))))))
/-- examples/tests/13-ngap.rs:14914-14921 -/
def UEContextResumeRequestProtocolIEs_Entry : Ty := .sequence false 0 (.required true ProtocolIE_ID (.required false Criticality (.required false UEContextResumeRequestProtocolIEs_EntryValue .nil)))
/-- examples/tests/13-ngap.rs:14923-14930 -/
def UEContextResumeRequestProtocolIEs : Ty := .sequenceOf (some 0) (some 65535) false UEContextResumeRequestProtocolIEs_Entry
/-- examples/tests/13-ngap.rs:6240-6244 -/
def UEContextResumeRequest : Ty := .sequence true 0 (.required false UEContextResumeRequestProtocolIEs .nil)
/-- examples/tests/13-ngap.rs:11233-11235 -/
def PDUSessionResourceItemCxtRelReqIE_Extensions_Entry : Ty := .sequence false 0 .nil
/-- examples/tests/13-ngap.rs:11237-11246 -/
def PDUSessionResourceItemCxtRelReqIE_Extensions : Ty := .sequenceOf (some 1) (some 65535) false PDUSessionResourceItemCxtRelReqIE_Extensions_Entry
/-- examples/tests/13-ngap.rs:3681-3687 -/
def PDUSessionResourceItemCxtRelReq : Ty := .sequence true 1 (.required false PDUSessionID (.optional 0 PDUSessionResourceItemCxtRelReqIE_Extensions .nil))
/-- examples/tests/13-ngap.rs:3707-3714 -/
def PDUSessionResourceListCxtRelReq : Ty := .sequenceOf (some 1) (some 256) false PDUSessionResourceItemCxtRelReq
/-- examples/tests/13-ngap.rs:14831-14842 -/
def UEContextReleaseRequestProtocolIEs_EntryValue : Ty := .openType (.cons 10 false AMF_UE_NGAP_ID (.cons 15 false Cause (.cons 133 false PDUSessionResourceListCxtRelReq (.cons 85 false RAN_UE_NGAP_ID .nil))))
/-- examples/tests/13-ngap.rs:14844-14851 -/
def UEContextReleaseRequestProtocolIEs_Entry : Ty := .sequence false 0 (.required true ProtocolIE_ID (.required false Criticality (.required false UEContextReleaseRequestProtocolIEs_EntryValue .nil)))
/-- examples/tests/13-ngap.rs:14853-14860 -/
def UEContextReleaseRequestProtocolIEs : Ty := .sequenceOf (some 0) (some 65535) false UEContextReleaseRequestProtocolIEs_Entry
/-- examples/tests/13-ngap.rs:6221-6225 -/
def UEContextReleaseRequest : Ty := .sequence true 0 (.required false UEContextReleaseRequestProtocolIEs .nil)
/-- examples/tests/13-ngap.rs:14596-14598 -/
def UE_NGAP_IDschoice_Extensions : Ty := .sequence false 0 .nil
/-- examples/tests/13-ngap.rs:14583-14585 -/
def UE_NGAP_ID_pairIE_Extensions_Entry : Ty := .sequence false 0 .nil
/-- examples/tests/13-ngap.rs:14587-14594 -/
def UE_NGAP_ID_pairIE_Extensions : Ty := .sequenceOf (some 1) (some 65535) false UE_NGAP_ID_pairIE_Extensions_Entry
/-- examples/tests/13-ngap.rs:6128-6135 -/
def UE_NGAP_ID_pair : Ty := .sequence true 1 (.required false AMF_UE_NGAP_ID (.required false RAN_UE_NGAP_ID (.optional 0 UE_NGAP_ID_pairIE_Extensions .nil)))
/-- examples/tests/13-ngap.rs:6137-6146 -/
def UE_NGAP_IDs : Ty := .choice 0 2 false (.cons 0 false UE_NGAP_ID_pair (.cons 1 false AMF_UE_NGAP_ID (.cons 2 false UE_NGAP_IDschoice_Extensions .nil)))
/-- examples/tests/13-ngap.rs:14767-14774 -/
def UEContextReleaseCommandProtocolIEs_EntryValue : Ty := .openType (.cons 15 false Cause (.cons 114 false UE_NGAP_IDs .nil))
/-- examples/tests/13-ngap.rs:14776-14783 -/
def UEContextReleaseCommandProtocolIEs_Entry : Ty := .sequence false 0 (.required true ProtocolIE_ID (.required false Criticality (.required false UEContextReleaseCommandProtocolIEs_EntryValue .nil)))
/-- examples/tests/13-ngap.rs:14785-14792 -/
def UEContextReleaseCommandProtocolIEs : Ty := .sequenceOf (some 0) (some 65535) false UEContextReleaseCommandProtocolIEs_Entry
/-- examples/tests/13-ngap.rs:6209-6213 -/
def UEContextReleaseCommand : Ty := .sequence true 0 (.required false UEContextReleaseCommandProtocolIEs .nil)
/-- examples/tests/13-ngap.rs:14663-14710 -/
def UEContextModificationRequestProtocolIEs_EntryValue : Ty := .openType (.cons 10 false AMF_UE_NGAP_ID (.cons 165 false CNAssistedRANTuning (.cons 18 false CoreNetworkAssistanceInformationForInactive (.cons 24 false EmergencyFallbackIndicator (.cons 199 false IAB_Authorized (.cons 31 false IndexToRFSP (.cons 217 false LTEUESidelinkAggregateMaximumBitrate (.cons 215 false LTEV2XServicesAuthorized (.cons 218 false NRUESidelinkAggregateMaximumBitrate (.cons 216 false NRV2XServicesAuthorized (.cons 40 false AMF_UE_NGAP_ID (.cons 162 false GUAMI (.cons 219 false PC5QoSParameters (.cons 85 false RAN_UE_NGAP_ID (.cons 83 false RANPagingPriority (.cons 238 false RGLevelWirelineAccessCharacteristics (.cons 91 false RRCInactiveTransitionReportRequest (.cons 177 false SRVCCOperationPossible (.cons 94 false SecurityKey (.cons 110 false UEAggregateMaximumBitRate (.cons 264 false UERadioCapabilityID (.cons 119 false UESecurityCapabilities .nil))))))))))))))))))))))
/-- examples/tests/13-ngap.rs:14712-14719 -/
def UEContextModificationRequestProtocolIEs_Entry : Ty := .sequence false 0 (.required true ProtocolIE_ID (.required false Criticality (.required false UEContextModificationRequestProtocolIEs_EntryValue .nil)))
/-- examples/tests/13-ngap.rs:14721-14730 -/
def UEContextModificationRequestProtocolIEs : Ty := .sequenceOf (some 0) (some 65535) false UEContextModificationRequestProtocolIEs_Entry
/-- examples/tests/13-ngap.rs:6197-6201 -/
def UEContextModificationRequest : Ty := .sequence true 0 (.required false UEContextModificationRequestProtocolIEs .nil)
/-- examples/tests/13-ngap.rs:14503-14512 -/
def TraceStartProtocolIEs_EntryValue : Ty := .openType (.cons 10 false AMF_UE_NGAP_ID (.cons 85 false RAN_UE_NGAP_ID (.cons 108 false TraceActivation .nil)))
/-- examples/tests/13-ngap.rs:14514-14521 -/
def TraceStartProtocolIEs_Entry : Ty := .sequence false 0 (.required true ProtocolIE_ID (.required false Criticality (.required false TraceStartProtocolIEs_EntryValue .nil)))
/-- examples/tests/13-ngap.rs:14523-14530 -/
def TraceStartProtocolIEs : Ty := .sequenceOf (some 0) (some 65535) false TraceStartProtocolIEs_Entry
/-- examples/tests/13-ngap.rs:6078-6082 -/
def TraceStart : Ty := .sequence true 0 (.required false TraceStartProtocolIEs .nil)
/-- examples/tests/13-ngap.rs:14472-14483 -/
def TraceFailureIndicationProtocolIEs_EntryValue : Ty := .openType (.cons 10 false AMF_UE_NGAP_ID (.cons 15 false Cause (.cons 44 false NGRANTraceID (.cons 85 false RAN_UE_NGAP_ID .nil))))
/-- examples/tests/13-ngap.rs:14485-14492 -/
def TraceFailureIndicationProtocolIEs_Entry : Ty := .sequence false 0 (.required true ProtocolIE_ID (.required false Criticality (.required false TraceFailureIndicationProtocolIEs_EntryValue .nil)))
/-- examples/tests/13-ngap.rs:14494-14501 -/
def TraceFailureIndicationProtocolIEs : Ty := .sequenceOf (some 0) (some 65535) false TraceFailureIndicationProtocolIEs_Entry
/-- examples/tests/13-ngap.rs:6072-6076 -/
def TraceFailureIndication : Ty := .sequence true 0 (.required false TraceFailureIndicationProtocolIEs .nil)
/-- examples/tests/13-ngap.rs:12008-12010 -/
def PDUSessionResourceSecondaryRATUsageItemIE_Extensions_Entry : Ty := .sequence false 0 .nil
/-- examples/tests/13-ngap.rs:12012-12021 -/
def PDUSessionResourceSecondaryRATUsageItemIE_Extensions : Ty := .sequenceOf (some 1) (some 65535) false PDUSessionResourceSecondaryRATUsageItemIE_Extensions_Entry
/-- examples/tests/13-ngap.rs:12004-12006 -/
def OCTET_STRING_56 : Ty := .octetstring none none false
/-- examples/tests/13-ngap.rs:4065-4072 -/
def PDUSessionResourceSecondaryRATUsageItem : Ty := .sequence true 1 (.required false PDUSessionID (.required false OCTET_STRING_56 (.optional 0 PDUSessionResourceSecondaryRATUsageItemIE_Extensions .nil)))
/-- examples/tests/13-ngap.rs:4074-4083 -/
def PDUSessionResourceSecondaryRATUsageList : Ty := .sequenceOf (some 1) (some 256) false PDUSessionResourceSecondaryRATUsageItem
/-- examples/tests/13-ngap.rs:13789-13802 -/
def SecondaryRATDataUsageReportProtocolIEs_EntryValue : Ty := .openType (.cons 10 false AMF_UE_NGAP_ID (.cons 143 false HandoverFlag (.cons 142 false PDUSessionResourceSecondaryRATUsageList (.cons 85 false RAN_UE_NGAP_ID (.cons 121 false UserLocationInformation .nil)))))
/-- examples/tests/13-ngap.rs:13804-13811 -/
def SecondaryRATDataUsageReportProtocolIEs_Entry : Ty := .sequence false 0 (.required true ProtocolIE_ID (.required false Criticality (.required false SecondaryRATDataUsageReportProtocolIEs_EntryValue .nil)))
/-- examples/tests/13-ngap.rs:13813-13822 -/
def SecondaryRATDataUsageReportProtocolIEs : Ty := .sequenceOf (some 0) (some 65535) false SecondaryRATDataUsageReportProtocolIEs_Entry
/-- examples/tests/13-ngap.rs:5403-5407 -/
def SecondaryRATDataUsageReport : Ty := .sequence true 0 (.required false SecondaryRATDataUsageReportProtocolIEs .nil)
/-- examples/tests/13-ngap.rs:13661-13666 -/
def RetrieveUEInformationProtocolIEs_EntryValue : Ty := .openType (.cons 26 false FiveG_S_TMSI .nil)
/-- examples/tests/13-ngap.rs:13668-13675 -/
def RetrieveUEInformationProtocolIEs_Entry : Ty := .sequence false 0 (.required true ProtocolIE_ID (.required false Criticality (.required false RetrieveUEInformationProtocolIEs_EntryValue .nil)))
/-- examples/tests/13-ngap.rs:13677-13684 -/
def RetrieveUEInformationProtocolIEs : Ty := .sequenceOf (some 0) (some 65535) false RetrieveUEInformationProtocolIEs_Entry
/-- examples/tests/13-ngap.rs:5292-5296 -/
def RetrieveUEInformation : Ty := .sequence true 0 (.required false RetrieveUEInformationProtocolIEs .nil)
/-- examples/tests/13-ngap.rs:13624-13637 -/
def RerouteNASRequestProtocolIEs_EntryValue : Ty := .openType (.cons 10 false AMF_UE_NGAP_ID (.cons 3 false AMFSetID (.cons 0 false AllowedNSSAI (.cons 85 false RAN_UE_NGAP_ID (.cons 171 false SourceToTarget_AMFInformationReroute .nil)))))
/-- examples/tests/13-ngap.rs:13639-13646 -/
def RerouteNASRequestProtocolIEs_Entry : Ty := .sequence false 0 (.required true ProtocolIE_ID (.required false Criticality (.required false RerouteNASRequestProtocolIEs_EntryValue .nil)))
/-- examples/tests/13-ngap.rs:13648-13655 -/
def RerouteNASRequestProtocolIEs : Ty := .sequenceOf (some 0) (some 65535) false RerouteNASRequestProtocolIEs_Entry
/-- examples/tests/13-ngap.rs:5268-5272 -/
def RerouteNASRequest : Ty := .sequence true 0 (.required false RerouteNASRequestProtocolIEs .nil)
/-- examples/tests/13-ngap.rs:5098-5100 -/
def RRCState : Ty := .enumerated .u8 (some 0) (some 1) true
/-- examples/tests/13-ngap.rs:13516-13527 -/
def RRCInactiveTransitionReportProtocolIEs_EntryValue : Ty := .openType (.cons 10 false AMF_UE_NGAP_ID (.cons 85 false RAN_UE_NGAP_ID (.cons 92 false RRCState (.cons 121 false UserLocationInformation .nil))))
/-- examples/tests/13-ngap.rs:13529-13536 -/
def RRCInactiveTransitionReportProtocolIEs_Entry : Ty := .sequence false 0 (.required true ProtocolIE_ID (.required false Criticality (.required false RRCInactiveTransitionReportProtocolIEs_EntryValue .nil)))
/-- examples/tests/13-ngap.rs:13538-13547 -/
def RRCInactiveTransitionReportProtocolIEs : Ty := .sequenceOf (some 0) (some 65535) false RRCInactiveTransitionReportProtocolIEs_Entry
/-- examples/tests/13-ngap.rs:5083-5087 -/
def RRCInactiveTransitionReport : Ty := .sequence true 0 (.required false RRCInactiveTransitionReportProtocolIEs .nil)
/-- examples/tests/13-ngap.rs:5011-5013 -/
def RAT_Information : Ty := .enumerated .u8 (some 0) (some 1) true
/-- examples/tests/13-ngap.rs:14131-14138 -/
def SupportedTAItemIE_Extensions_EntryExtensionValue : Ty := .openType (.cons 272 false ConfiguredTACIndication (.cons 179 false RAT_Information .nil))
/-- examples/tests/13-ngap.rs:14140-14147 -/
def SupportedTAItemIE_Extensions_Entry : Ty := .sequence false 0 (.required true ProtocolExtensionID (.required false Criticality (.required false SupportedTAItemIE_Extensions_EntryExtensionValue .nil)))
/-- examples/tests/13-ngap.rs:14149-14156 -/
def SupportedTAItemIE_Extensions : Ty := .sequenceOf (some 1) (some 65535) false SupportedTAItemIE_Extensions_Entry
/-- examples/tests/13-ngap.rs:5645-5652 -/
def SupportedTAItem : Ty := .sequence true 1 (.required false TAC (.required false BroadcastPLMNList (.optional 0 SupportedTAItemIE_Extensions .nil)))
/-- examples/tests/13-ngap.rs:5654-5661 -/
def SupportedTAList : Ty := .sequenceOf (some 1) (some 256) false SupportedTAItem
/-- examples/tests/13-ngap.rs:4977-4984 -/
def RANNodeName : Ty := .charstring .printable (some 1) (some 150) true
/-- examples/tests/13-ngap.rs:10576-10578 -/
def NGRAN_TNLAssociationToRemoveItemIE_Extensions_Entry : Ty := .sequence false 0 .nil
/-- examples/tests/13-ngap.rs:10580-10589 -/
def NGRAN_TNLAssociationToRemoveItemIE_Extensions : Ty := .sequenceOf (some 1) (some 65535) false NGRAN_TNLAssociationToRemoveItemIE_Extensions_Entry
/-- examples/tests/13-ngap.rs:3051-3059 -/
def NGRAN_TNLAssociationToRemoveItem : Ty := .sequence false 2 (.required false CPTransportLayerInformation (.optional 0 CPTransportLayerInformation (.optional 1 NGRAN_TNLAssociationToRemoveItemIE_Extensions .nil)))
/-- examples/tests/13-ngap.rs:3061-3063 -/
def NGRAN_TNLAssociationToRemoveList : Ty := .sequenceOf (some 1) (some 32) false NGRAN_TNLAssociationToRemoveItem
/-- examples/tests/13-ngap.rs:2951-2953 -/
def NB_IoT_DefaultPagingDRX : Ty := .enumerated .u8 (some 0) (some 3) true
/-- examples/tests/13-ngap.rs:13347-13364 -/
def RANConfigurationUpdateProtocolIEs_EntryValue : Ty := .openType (.cons 21 false PagingDRX (.cons 273 false Extended_RANNodeName (.cons 27 false GlobalRANNodeID (.cons 204 false NB_IoT_DefaultPagingDRX (.cons 167 false NGRAN_TNLAssociationToRemoveList (.cons 82 false RANNodeName (.cons 102 false SupportedTAList .nil)))))))
/-- examples/tests/13-ngap.rs:13366-13373 -/
def RANConfigurationUpdateProtocolIEs_Entry : Ty := .sequence false 0 (.required true ProtocolIE_ID (.required false Criticality (.required false RANConfigurationUpdateProtocolIEs_EntryValue .nil)))
/-- examples/tests/13-ngap.rs:13375-13382 -/
def RANConfigurationUpdateProtocolIEs : Ty := .sequenceOf (some 0) (some 65535) false RANConfigurationUpdateProtocolIEs_Entry
/-- examples/tests/13-ngap.rs:4959-4963 -/
def RANConfigurationUpdate : Ty := .sequence true 0 (.required false RANConfigurationUpdateProtocolIEs .nil)
/-- examples/tests/13-ngap.rs:15409-15411 -/
def UL_CP_SecurityInformationIE_Extensions_Entry : Ty := .sequence false 0 .nil
/-- examples/tests/13-ngap.rs:15413-15422 -/
def UL_CP_SecurityInformationIE_Extensions : Ty := .sequenceOf (some 1) (some 65535) false UL_CP_SecurityInformationIE_Extensions_Entry
/-- examples/tests/13-ngap.rs:6461-6463 -/
def UL_NAS_Count : Ty := .bitstring (some 5) (some 5) false
/-- examples/tests/13-ngap.rs:6465-6467 -/
def UL_NAS_MAC : Ty := .bitstring (some 16) (some 16) false
/-- examples/tests/13-ngap.rs:6452-6459 -/
def UL_CP_SecurityInformation : Ty := .sequence true 1 (.required false UL_NAS_MAC (.required false UL_NAS_Count (.optional 0 UL_CP_SecurityInformationIE_Extensions .nil)))
/-- examples/tests/13-ngap.rs:13312-13325 -/
def RANCPRelocationIndicationProtocolIEs_EntryValue : Ty := .openType (.cons 25 false EUTRA_CGI (.cons 26 false FiveG_S_TMSI (.cons 85 false RAN_UE_NGAP_ID (.cons 213 false TAI (.cons 211 false UL_CP_SecurityInformation .nil)))))
/-- examples/tests/13-ngap.rs:13327-13334 -/
def RANCPRelocationIndicationProtocolIEs_Entry : Ty := .sequence false 0 (.required true ProtocolIE_ID (.required false Criticality (.required false RANCPRelocationIndicationProtocolIEs_EntryValue .nil)))
/-- examples/tests/13-ngap.rs:13336-13345 -/
def RANCPRelocationIndicationProtocolIEs : Ty := .sequenceOf (some 0) (some 65535) false RANCPRelocationIndicationProtocolIEs_Entry
/-- examples/tests/13-ngap.rs:4953-4957 -/
def RANCPRelocationIndication : Ty := .sequence true 0 (.required false RANCPRelocationIndicationProtocolIEs .nil)
/-- examples/tests/13-ngap.rs:12937-12939 -/
def PrivateMessagePrivateIEs_Entry : Ty := .sequence false 0 .nil
/-- examples/tests/13-ngap.rs:12941-12948 -/
def PrivateMessagePrivateIEs : Ty := .sequenceOf (some 1) (some 65535) false PrivateMessagePrivateIEs_Entry
/-- examples/tests/13-ngap.rs:4679-4683 -/
def PrivateMessage : Ty := .sequence true 0 (.required false PrivateMessagePrivateIEs .nil)
/-- examples/tests/13-ngap.rs:12333-12335 -/
def PDUSessionResourceToBeSwitchedDLItemIE_Extensions_Entry : Ty := .sequence false 0 .nil
/-- examples/tests/13-ngap.rs:12337-12346 -/
def PDUSessionResourceToBeSwitchedDLItemIE_Extensions : Ty := .sequenceOf (some 1) (some 65535) false PDUSessionResourceToBeSwitchedDLItemIE_Extensions_Entry
/-- examples/tests/13-ngap.rs:12329-12331 -/
def OCTET_STRING_64 : Ty := .octetstring none none false
/-- examples/tests/13-ngap.rs:4260-4267 -/
def PDUSessionResourceToBeSwitchedDLItem : Ty := .sequence true 1 (.required false PDUSessionID (.required false OCTET_STRING_64 (.optional 0 PDUSessionResourceToBeSwitchedDLItemIE_Extensions .nil)))
/-- examples/tests/13-ngap.rs:4269-4276 -/
def PDUSessionResourceToBeSwitchedDLList : Ty := .sequenceOf (some 1) (some 256) false PDUSessionResourceToBeSwitchedDLItem
/-- examples/tests/13-ngap.rs:11141-11143 -/
def PDUSessionResourceFailedToSetupItemPSReqIE_Extensions_Entry : Ty := .sequence false 0 .nil
/-- examples/tests/13-ngap.rs:11145-11154 -/
def PDUSessionResourceFailedToSetupItemPSReqIE_Extensions : Ty := .sequenceOf (some 1) (some 65535) false PDUSessionResourceFailedToSetupItemPSReqIE_Extensions_Entry
/-- examples/tests/13-ngap.rs:11137-11139 -/
def OCTET_STRING_41 : Ty := .octetstring none none false
/-- examples/tests/13-ngap.rs:3562-3569 -/
def PDUSessionResourceFailedToSetupItemPSReq : Ty := .sequence true 1 (.required false PDUSessionID (.required false OCTET_STRING_41 (.optional 0 PDUSessionResourceFailedToSetupItemPSReqIE_Extensions .nil)))
/-- examples/tests/13-ngap.rs:3613-3622 -/
def PDUSessionResourceFailedToSetupListPSReq : Ty := .sequenceOf (some 1) (some 256) false PDUSessionResourceFailedToSetupItemPSReq
/-- examples/tests/13-ngap.rs:12686-12703 -/
def PathSwitchRequestProtocolIEs_EntryValue : Ty := .openType (.cons 57 false PDUSessionResourceFailedToSetupListPSReq (.cons 76 false PDUSessionResourceToBeSwitchedDLList (.cons 85 false RAN_UE_NGAP_ID (.cons 237 false RRCEstablishmentCause (.cons 100 false AMF_UE_NGAP_ID (.cons 119 false UESecurityCapabilities (.cons 121 false UserLocationInformation .nil)))))))
/-- examples/tests/13-ngap.rs:12705-12712 -/
def PathSwitchRequestProtocolIEs_Entry : Ty := .sequence false 0 (.required true ProtocolIE_ID (.required false Criticality (.required false PathSwitchRequestProtocolIEs_EntryValue .nil)))
/-- examples/tests/13-ngap.rs:12714-12721 -/
def PathSwitchRequestProtocolIEs : Ty := .sequenceOf (some 0) (some 65535) false PathSwitchRequestProtocolIEs_Entry
/-- examples/tests/13-ngap.rs:4551-4555 -/
def PathSwitchRequest : Ty := .sequence true 0 (.required false PathSwitchRequestProtocolIEs .nil)
/-- examples/tests/13-ngap.rs:15967-15969 -/
def WUS_Assistance_InformationIE_Extensions_Entry : Ty := .sequence false 0 .nil
/-- examples/tests/13-ngap.rs:15971-15980 -/
def WUS_Assistance_InformationIE_Extensions : Ty := .sequenceOf (some 1) (some 65535) false WUS_Assistance_InformationIE_Extensions_Entry
/-- examples/tests/13-ngap.rs:4514-4516 -/
def PagingProbabilityInformation : Ty := .enumerated .u8 (some 0) (some 20) true
/-- examples/tests/13-ngap.rs:6763-6769 -/
def WUS_Assistance_Information : Ty := .sequence true 1 (.required false PagingProbabilityInformation (.optional 0 WUS_Assistance_InformationIE_Extensions .nil))
/-- examples/tests/13-ngap.rs:15158-15160 -/
def UEPagingIdentitychoice_Extensions : Ty := .sequence false 0 .nil
/-- examples/tests/13-ngap.rs:6325-6332 -/
def UEPagingIdentity : Ty := .choice 0 1 false (.cons 0 false FiveG_S_TMSI (.cons 1 false UEPagingIdentitychoice_Extensions .nil))
/-- examples/tests/13-ngap.rs:14262-14264 -/
def TAIListForPagingItemIE_Extensions_Entry : Ty := .sequence false 0 .nil
/-- examples/tests/13-ngap.rs:14266-14273 -/
def TAIListForPagingItemIE_Extensions : Ty := .sequenceOf (some 1) (some 65535) false TAIListForPagingItemIE_Extensions_Entry
/-- examples/tests/13-ngap.rs:5801-5807 -/
def TAIListForPagingItem : Ty := .sequence true 1 (.required false TAI (.optional 0 TAIListForPagingItemIE_Extensions .nil))
/-- examples/tests/13-ngap.rs:5797-5799 -/
def TAIListForPaging : Ty := .sequenceOf (some 1) (some 16) false TAIListForPagingItem
/-- examples/tests/13-ngap.rs:4500-4502 -/
def PagingPriority : Ty := .enumerated .u8 (some 0) (some 7) true
/-- examples/tests/13-ngap.rs:4493-4495 -/
def PagingOrigin : Ty := .enumerated .u8 (some 0) (some 0) true
/-- examples/tests/13-ngap.rs:3013-3015 -/
def NB_IoT_PagingDRX : Ty := .enumerated .u8 (some 0) (some 5) true
/-- examples/tests/13-ngap.rs:10559-10561 -/
def NB_IoT_Paging_eDRXInfoIE_Extensions_Entry : Ty := .sequence false 0 .nil
/-- examples/tests/13-ngap.rs:10563-10570 -/
def NB_IoT_Paging_eDRXInfoIE_Extensions : Ty := .sequenceOf (some 1) (some 65535) false NB_IoT_Paging_eDRXInfoIE_Extensions_Entry
/-- examples/tests/13-ngap.rs:2961-2963 -/
def NB_IoT_Paging_TimeWindow : Ty := .enumerated .u8 (some 0) (some 15) true
/-- examples/tests/13-ngap.rs:2983-2985 -/
def NB_IoT_Paging_eDRXCycle : Ty := .enumerated .u8 (some 0) (some 13) true
/-- examples/tests/13-ngap.rs:3003-3011 -/
def NB_IoT_Paging_eDRXInfo : Ty := .sequence true 2 (.required false NB_IoT_Paging_eDRXCycle (.optional 0 NB_IoT_Paging_TimeWindow (.optional 1 NB_IoT_Paging_eDRXInfoIE_Extensions .nil)))
/-- examples/tests/13-ngap.rs:12594-12623 -/
def PagingProtocolIEs_EntryValue : Ty := .openType (.cons 11 false AssistanceDataForPaging (.cons 222 false CEmodeBrestricted (.cons 205 false Enhanced_CoverageRestriction (.cons 203 false NB_IoT_Paging_eDRXInfo (.cons 202 false NB_IoT_PagingDRX (.cons 50 false PagingDRX (.cons 51 false PagingOrigin (.cons 52 false PagingPriority (.cons 223 false PagingeDRXInformation (.cons 103 false TAIListForPaging (.cons 115 false UEPagingIdentity (.cons 118 false UERadioCapabilityForPaging (.cons 208 false WUS_Assistance_Information .nil)))))))))))))
/-- examples/tests/13-ngap.rs:12625-12632 -/
def PagingProtocolIEs_Entry : Ty := .sequence false 0 (.required true ProtocolIE_ID (.required false Criticality (.required false PagingProtocolIEs_EntryValue .nil)))
/-- examples/tests/13-ngap.rs:12634-12641 -/
def PagingProtocolIEs : Ty := .sequenceOf (some 0) (some 65535) false PagingProtocolIEs_Entry
/-- examples/tests/13-ngap.rs:4411-4415 -/
def Paging : Ty := .sequence true 0 (.required false PagingProtocolIEs .nil)
/-- examples/tests/13-ngap.rs:5809-5816 -/
def TAIListForRestart : Ty := .sequenceOf (some 1) (some 2048) false TAI
/-- examples/tests/13-ngap.rs:12542-12553 -/
def PWSRestartIndicationProtocolIEs_EntryValue : Ty := .openType (.cons 16 false CellIDListForRestart (.cons 23 false EmergencyAreaIDListForRestart (.cons 27 false GlobalRANNodeID (.cons 104 false TAIListForRestart .nil))))
/-- examples/tests/13-ngap.rs:12555-12562 -/
def PWSRestartIndicationProtocolIEs_Entry : Ty := .sequence false 0 (.required true ProtocolIE_ID (.required false Criticality (.required false PWSRestartIndicationProtocolIEs_EntryValue .nil)))
/-- examples/tests/13-ngap.rs:12564-12571 -/
def PWSRestartIndicationProtocolIEs : Ty := .sequenceOf (some 0) (some 65535) false PWSRestartIndicationProtocolIEs_Entry
/-- examples/tests/13-ngap.rs:4388-4392 -/
def PWSRestartIndication : Ty := .sequence true 0 (.required false PWSRestartIndicationProtocolIEs .nil)
/-- examples/tests/13-ngap.rs:12511-12513 -/
def PWSFailedCellIDListchoice_Extensions : Ty := .sequence false 0 .nil
/-- examples/tests/13-ngap.rs:4371-4380 -/
def PWSFailedCellIDList : Ty := .choice 0 2 false (.cons 0 false EUTRA_CGIList (.cons 1 false NR_CGIList (.cons 2 false PWSFailedCellIDListchoice_Extensions .nil)))
/-- examples/tests/13-ngap.rs:12515-12522 -/
def PWSFailureIndicationProtocolIEs_EntryValue : Ty := .openType (.cons 27 false GlobalRANNodeID (.cons 81 false PWSFailedCellIDList .nil))
/-- examples/tests/13-ngap.rs:12524-12531 -/
def PWSFailureIndicationProtocolIEs_Entry : Ty := .sequence false 0 (.required true ProtocolIE_ID (.required false Criticality (.required false PWSFailureIndicationProtocolIEs_EntryValue .nil)))
/-- examples/tests/13-ngap.rs:12533-12540 -/
def PWSFailureIndicationProtocolIEs : Ty := .sequenceOf (some 0) (some 65535) false PWSFailureIndicationProtocolIEs_Entry
/-- examples/tests/13-ngap.rs:4382-4386 -/
def PWSFailureIndication : Ty := .sequence true 0 (.required false PWSFailureIndicationProtocolIEs .nil)
/-- examples/tests/13-ngap.rs:12449-12460 -/
def PWSCancelRequestProtocolIEs_EntryValue : Ty := .openType (.cons 14 false CancelAllWarningMessages (.cons 35 false MessageIdentifier (.cons 95 false SerialNumber (.cons 122 false WarningAreaList .nil))))
/-- examples/tests/13-ngap.rs:12462-12469 -/
def PWSCancelRequestProtocolIEs_Entry : Ty := .sequence false 0 (.required true ProtocolIE_ID (.required false Criticality (.required false PWSCancelRequestProtocolIEs_EntryValue .nil)))
/-- examples/tests/13-ngap.rs:12471-12478 -/
def PWSCancelRequestProtocolIEs : Ty := .sequenceOf (some 0) (some 65535) false PWSCancelRequestProtocolIEs_Entry
/-- examples/tests/13-ngap.rs:4359-4363 -/
def PWSCancelRequest : Ty := .sequence true 0 (.required false PWSCancelRequestProtocolIEs .nil)
/-- examples/tests/13-ngap.rs:12084-12086 -/
def PDUSessionResourceSetupItemSUReqIE_Extensions_Entry : Ty := .sequence false 0 .nil
/-- examples/tests/13-ngap.rs:12088-12097 -/
def PDUSessionResourceSetupItemSUReqIE_Extensions : Ty := .sequenceOf (some 1) (some 65535) false PDUSessionResourceSetupItemSUReqIE_Extensions_Entry
/-- examples/tests/13-ngap.rs:12080-12082 -/
def OCTET_STRING_60 : Ty := .octetstring none none false
/-- examples/tests/13-ngap.rs:4116-4126 -/
def PDUSessionResourceSetupItemSUReq : Ty := .sequence true 2 (.required false PDUSessionID (.optional 0 NAS_PDU (.required false S_NSSAI (.required false OCTET_STRING_60 (.optional 1 PDUSessionResourceSetupItemSUReqIE_Extensions .nil)))))
/-- examples/tests/13-ngap.rs:4164-4171 -/
def PDUSessionResourceSetupListSUReq : Ty := .sequenceOf (some 1) (some 256) false PDUSessionResourceSetupItemSUReq
/-- examples/tests/13-ngap.rs:12118-12133 -/
def PDUSessionResourceSetupRequestProtocolIEs_EntryValue : Ty := .openType (.cons 10 false AMF_UE_NGAP_ID (.cons 38 false NAS_PDU (.cons 74 false PDUSessionResourceSetupListSUReq (.cons 85 false RAN_UE_NGAP_ID (.cons 83 false RANPagingPriority (.cons 110 false UEAggregateMaximumBitRate .nil))))))
/-- examples/tests/13-ngap.rs:12135-12142 -/
def PDUSessionResourceSetupRequestProtocolIEs_Entry : Ty := .sequence false 0 (.required true ProtocolIE_ID (.required false Criticality (.required false PDUSessionResourceSetupRequestProtocolIEs_EntryValue .nil)))
/-- examples/tests/13-ngap.rs:12144-12153 -/
def PDUSessionResourceSetupRequestProtocolIEs : Ty := .sequenceOf (some 0) (some 65535) false PDUSessionResourceSetupRequestProtocolIEs_Entry
/-- examples/tests/13-ngap.rs:4182-4186 -/
def PDUSessionResourceSetupRequest : Ty := .sequence true 0 (.required false PDUSessionResourceSetupRequestProtocolIEs .nil)
/-- examples/tests/13-ngap.rs:12371-12373 -/
def PDUSessionResourceToReleaseItemRelCmdIE_Extensions_Entry : Ty := .sequence false 0 .nil
/-- examples/tests/13-ngap.rs:12375-12384 -/
def PDUSessionResourceToReleaseItemRelCmdIE_Extensions : Ty := .sequenceOf (some 1) (some 65535) false PDUSessionResourceToReleaseItemRelCmdIE_Extensions_Entry
/-- examples/tests/13-ngap.rs:12367-12369 -/
def OCTET_STRING_66 : Ty := .octetstring none none false
/-- examples/tests/13-ngap.rs:4287-4294 -/
def PDUSessionResourceToReleaseItemRelCmd : Ty := .sequence true 1 (.required false PDUSessionID (.required false OCTET_STRING_66 (.optional 0 PDUSessionResourceToReleaseItemRelCmdIE_Extensions .nil)))
/-- examples/tests/13-ngap.rs:4305-4312 -/
def PDUSessionResourceToReleaseListRelCmd : Ty := .sequenceOf (some 1) (some 256) false PDUSessionResourceToReleaseItemRelCmd
/-- examples/tests/13-ngap.rs:11778-11791 -/
def PDUSessionResourceReleaseCommandProtocolIEs_EntryValue : Ty := .openType (.cons 10 false AMF_UE_NGAP_ID (.cons 38 false NAS_PDU (.cons 79 false PDUSessionResourceToReleaseListRelCmd (.cons 85 false RAN_UE_NGAP_ID (.cons 83 false RANPagingPriority .nil)))))
/-- examples/tests/13-ngap.rs:11793-11800 -/
def PDUSessionResourceReleaseCommandProtocolIEs_Entry : Ty := .sequence false 0 (.required true ProtocolIE_ID (.required false Criticality (.required false PDUSessionResourceReleaseCommandProtocolIEs_EntryValue .nil)))
/-- examples/tests/13-ngap.rs:11802-11811 -/
def PDUSessionResourceReleaseCommandProtocolIEs : Ty := .sequenceOf (some 0) (some 65535) false PDUSessionResourceReleaseCommandProtocolIEs_Entry
/-- examples/tests/13-ngap.rs:3930-3934 -/
def PDUSessionResourceReleaseCommand : Ty := .sequence true 0 (.required false PDUSessionResourceReleaseCommandProtocolIEs .nil)
/-- examples/tests/13-ngap.rs:11894-11896 -/
def PDUSessionResourceReleasedItemNotIE_Extensions_Entry : Ty := .sequence false 0 .nil
/-- examples/tests/13-ngap.rs:11898-11907 -/
def PDUSessionResourceReleasedItemNotIE_Extensions : Ty := .sequenceOf (some 1) (some 65535) false PDUSessionResourceReleasedItemNotIE_Extensions_Entry
/-- examples/tests/13-ngap.rs:11890-11892 -/
def OCTET_STRING_50 : Ty := .octetstring none none false
/-- examples/tests/13-ngap.rs:3957-3964 -/
def PDUSessionResourceReleasedItemNot : Ty := .sequence true 1 (.required false PDUSessionID (.required false OCTET_STRING_50 (.optional 0 PDUSessionResourceReleasedItemNotIE_Extensions .nil)))
/-- examples/tests/13-ngap.rs:3993-4000 -/
def PDUSessionResourceReleasedListNot : Ty := .sequenceOf (some 1) (some 256) false PDUSessionResourceReleasedItemNot
/-- examples/tests/13-ngap.rs:11707-11709 -/
def PDUSessionResourceNotifyItemIE_Extensions_Entry : Ty := .sequence false 0 .nil
/-- examples/tests/13-ngap.rs:11711-11720 -/
def PDUSessionResourceNotifyItemIE_Extensions : Ty := .sequenceOf (some 1) (some 65535) false PDUSessionResourceNotifyItemIE_Extensions_Entry
/-- examples/tests/13-ngap.rs:11703-11705 -/
def OCTET_STRING_49 : Ty := .octetstring none none false
/-- examples/tests/13-ngap.rs:3893-3900 -/
def PDUSessionResourceNotifyItem : Ty := .sequence true 1 (.required false PDUSessionID (.required false OCTET_STRING_49 (.optional 0 PDUSessionResourceNotifyItemIE_Extensions .nil)))
/-- examples/tests/13-ngap.rs:3902-3909 -/
def PDUSessionResourceNotifyList : Ty := .sequenceOf (some 1) (some 256) false PDUSessionResourceNotifyItem
/-- examples/tests/13-ngap.rs:11670-11683 -/
def PDUSessionResourceNotifyProtocolIEs_EntryValue : Ty := .openType (.cons 10 false AMF_UE_NGAP_ID (.cons 66 false PDUSessionResourceNotifyList (.cons 67 false PDUSessionResourceReleasedListNot (.cons 85 false RAN_UE_NGAP_ID (.cons 121 false UserLocationInformation .nil)))))
/-- examples/tests/13-ngap.rs:11685-11692 -/
def PDUSessionResourceNotifyProtocolIEs_Entry : Ty := .sequence false 0 (.required true ProtocolIE_ID (.required false Criticality (.required false PDUSessionResourceNotifyProtocolIEs_EntryValue .nil)))
/-- examples/tests/13-ngap.rs:11694-11701 -/
def PDUSessionResourceNotifyProtocolIEs : Ty := .sequenceOf (some 0) (some 65535) false PDUSessionResourceNotifyProtocolIEs_Entry
/-- examples/tests/13-ngap.rs:3887-3891 -/
def PDUSessionResourceNotify : Ty := .sequence true 0 (.required false PDUSessionResourceNotifyProtocolIEs .nil)
/-- examples/tests/13-ngap.rs:11438-11440 -/
def PDUSessionResourceModifyItemModIndIE_Extensions_Entry : Ty := .sequence false 0 .nil
/-- examples/tests/13-ngap.rs:11442-11451 -/
def PDUSessionResourceModifyItemModIndIE_Extensions : Ty := .sequenceOf (some 1) (some 65535) false PDUSessionResourceModifyItemModIndIE_Extensions_Entry
/-- examples/tests/13-ngap.rs:11434-11436 -/
def OCTET_STRING_46 : Ty := .octetstring none none false
/-- examples/tests/13-ngap.rs:3777-3784 -/
def PDUSessionResourceModifyItemModInd : Ty := .sequence true 1 (.required false PDUSessionID (.required false OCTET_STRING_46 (.optional 0 PDUSessionResourceModifyItemModIndIE_Extensions .nil)))
/-- examples/tests/13-ngap.rs:3815-3822 -/
def PDUSessionResourceModifyListModInd : Ty := .sequenceOf (some 1) (some 256) false PDUSessionResourceModifyItemModInd
/-- examples/tests/13-ngap.rs:11331-11342 -/
def PDUSessionResourceModifyIndicationProtocolIEs_EntryValue : Ty := .openType (.cons 10 false AMF_UE_NGAP_ID (.cons 63 false PDUSessionResourceModifyListModInd (.cons 85 false RAN_UE_NGAP_ID (.cons 121 false UserLocationInformation .nil))))
/-- examples/tests/13-ngap.rs:11344-11351 -/
def PDUSessionResourceModifyIndicationProtocolIEs_Entry : Ty := .sequence false 0 (.required true ProtocolIE_ID (.required false Criticality (.required false PDUSessionResourceModifyIndicationProtocolIEs_EntryValue .nil)))
/-- examples/tests/13-ngap.rs:11353-11362 -/
def PDUSessionResourceModifyIndicationProtocolIEs : Ty := .sequenceOf (some 0) (some 65535) false PDUSessionResourceModifyIndicationProtocolIEs_Entry
/-- examples/tests/13-ngap.rs:3744-3748 -/
def PDUSessionResourceModifyIndication : Ty := .sequence true 0 (.required false PDUSessionResourceModifyIndicationProtocolIEs .nil)
/-- examples/tests/13-ngap.rs:11457-11462 -/
def PDUSessionResourceModifyItemModReqIE_Extensions_EntryExtensionValue : Ty := .openType (.cons 148 false S_NSSAI .nil)
/-- examples/tests/13-ngap.rs:11464-11471 -/
def PDUSessionResourceModifyItemModReqIE_Extensions_Entry : Ty := .sequence false 0 (.required true ProtocolExtensionID (.required false Criticality (.required false PDUSessionResourceModifyItemModReqIE_Extensions_EntryExtensionValue .nil)))
/-- examples/tests/13-ngap.rs:11473-11482 -/
def PDUSessionResourceModifyItemModReqIE_Extensions : Ty := .sequenceOf (some 1) (some 65535) false PDUSessionResourceModifyItemModReqIE_Extensions_Entry
/-- examples/tests/13-ngap.rs:11453-11455 -/
def OCTET_STRING_47 : Ty := .octetstring none none false
/-- examples/tests/13-ngap.rs:3786-3795 -/
def PDUSessionResourceModifyItemModReq : Ty := .sequence true 2 (.required false PDUSessionID (.optional 0 NAS_PDU (.required false OCTET_STRING_47 (.optional 1 PDUSessionResourceModifyItemModReqIE_Extensions .nil))))
/-- examples/tests/13-ngap.rs:3824-3831 -/
def PDUSessionResourceModifyListModReq : Ty := .sequenceOf (some 1) (some 256) false PDUSessionResourceModifyItemModReq
/-- examples/tests/13-ngap.rs:11503-11514 -/
def PDUSessionResourceModifyRequestProtocolIEs_EntryValue : Ty := .openType (.cons 10 false AMF_UE_NGAP_ID (.cons 64 false PDUSessionResourceModifyListModReq (.cons 85 false RAN_UE_NGAP_ID (.cons 83 false RANPagingPriority .nil))))
/-- examples/tests/13-ngap.rs:11516-11523 -/
def PDUSessionResourceModifyRequestProtocolIEs_Entry : Ty := .sequence false 0 (.required true ProtocolIE_ID (.required false Criticality (.required false PDUSessionResourceModifyRequestProtocolIEs_EntryValue .nil)))
/-- examples/tests/13-ngap.rs:11525-11534 -/
def PDUSessionResourceModifyRequestProtocolIEs : Ty := .sequenceOf (some 0) (some 65535) false PDUSessionResourceModifyRequestProtocolIEs_Entry
/-- examples/tests/13-ngap.rs:3842-3846 -/
def PDUSessionResourceModifyRequest : Ty := .sequence true 0 (.required false PDUSessionResourceModifyRequestProtocolIEs .nil)
/-- examples/tests/13-ngap.rs:10926-10928 -/
def OverloadStopProtocolIEs_Entry : Ty := .sequence false 0 .nil
/-- examples/tests/13-ngap.rs:10930-10937 -/
def OverloadStopProtocolIEs : Ty := .sequenceOf (some 0) (some 65535) false OverloadStopProtocolIEs_Entry
/-- examples/tests/13-ngap.rs:3374-3378 -/
def OverloadStop : Ty := .sequence true 0 (.required false OverloadStopProtocolIEs .nil)
/-- examples/tests/13-ngap.rs:10913-10915 -/
def OverloadStartNSSAIItemIE_Extensions_Entry : Ty := .sequence false 0 .nil
/-- examples/tests/13-ngap.rs:10917-10924 -/
def OverloadStartNSSAIItemIE_Extensions : Ty := .sequenceOf (some 1) (some 65535) false OverloadStartNSSAIItemIE_Extensions_Entry
/-- examples/tests/13-ngap.rs:6084-6086 -/
def TrafficLoadReductionIndication : Ty := .integer .u8 (some 1) (some 99) false
/-- examples/tests/13-ngap.rs:10880-10882 -/
def OverloadResponsechoice_Extensions : Ty := .sequence false 0 .nil
/-- examples/tests/13-ngap.rs:3328-3330 -/
def OverloadAction : Ty := .enumerated .u8 (some 0) (some 3) true
/-- examples/tests/13-ngap.rs:3338-3345 -/
def OverloadResponse : Ty := .choice 0 1 false (.cons 0 false OverloadAction (.cons 1 false OverloadResponsechoice_Extensions .nil))
/-- examples/tests/13-ngap.rs:14000-14002 -/
def SliceOverloadItemIE_Extensions_Entry : Ty := .sequence false 0 .nil
/-- examples/tests/13-ngap.rs:14004-14011 -/
def SliceOverloadItemIE_Extensions : Ty := .sequenceOf (some 1) (some 65535) false SliceOverloadItemIE_Extensions_Entry
/-- examples/tests/13-ngap.rs:5552-5558 -/
def SliceOverloadItem : Ty := .sequence true 1 (.required false S_NSSAI (.optional 0 SliceOverloadItemIE_Extensions .nil))
/-- examples/tests/13-ngap.rs:5560-5567 -/
def SliceOverloadList : Ty := .sequenceOf (some 1) (some 1024) false SliceOverloadItem
/-- examples/tests/13-ngap.rs:3353-3363 -/
def OverloadStartNSSAIItem : Ty := .sequence true 3 (.required false SliceOverloadList (.optional 0 OverloadResponse (.optional 1 TrafficLoadReductionIndication (.optional 2 OverloadStartNSSAIItemIE_Extensions .nil))))
/-- examples/tests/13-ngap.rs:3365-3372 -/
def OverloadStartNSSAIList : Ty := .sequenceOf (some 1) (some 1024) false OverloadStartNSSAIItem
/-- examples/tests/13-ngap.rs:10884-10893 -/
def OverloadStartProtocolIEs_EntryValue : Ty := .openType (.cons 2 false OverloadResponse (.cons 9 false TrafficLoadReductionIndication (.cons 49 false OverloadStartNSSAIList .nil)))
/-- examples/tests/13-ngap.rs:10895-10902 -/
def OverloadStartProtocolIEs_Entry : Ty := .sequence false 0 (.required true ProtocolIE_ID (.required false Criticality (.required false OverloadStartProtocolIEs_EntryValue .nil)))
/-- examples/tests/13-ngap.rs:10904-10911 -/
def OverloadStartProtocolIEs : Ty := .sequenceOf (some 0) (some 65535) false OverloadStartProtocolIEs_Entry
/-- examples/tests/13-ngap.rs:3347-3351 -/
def OverloadStart : Ty := .sequence true 0 (.required false OverloadStartProtocolIEs .nil)
/-- examples/tests/13-ngap.rs:6428-6430 -/
def UERetentionInformation : Ty := .enumerated .u8 (some 0) (some 0) true
/-- examples/tests/13-ngap.rs:10674-10691 -/
def NGSetupRequestProtocolIEs_EntryValue : Ty := .openType (.cons 21 false PagingDRX (.cons 273 false Extended_RANNodeName (.cons 27 false GlobalRANNodeID (.cons 204 false NB_IoT_DefaultPagingDRX (.cons 82 false RANNodeName (.cons 102 false SupportedTAList (.cons 147 false UERetentionInformation .nil)))))))
/-- examples/tests/13-ngap.rs:10693-10700 -/
def NGSetupRequestProtocolIEs_Entry : Ty := .sequence false 0 (.required true ProtocolIE_ID (.required false Criticality (.required false NGSetupRequestProtocolIEs_EntryValue .nil)))
/-- examples/tests/13-ngap.rs:10702-10709 -/
def NGSetupRequestProtocolIEs : Ty := .sequenceOf (some 0) (some 65535) false NGSetupRequestProtocolIEs_Entry
/-- examples/tests/13-ngap.rs:3087-3091 -/
def NGSetupRequest : Ty := .sequence true 0 (.required false NGSetupRequestProtocolIEs .nil)
/-- examples/tests/13-ngap.rs:13657-13659 -/
def ResetTypechoice_Extensions : Ty := .sequence false 0 .nil
/-- examples/tests/13-ngap.rs:14600-14602 -/
def UE_associatedLogicalNG_connectionItemIE_Extensions_Entry : Ty := .sequence false 0 .nil
/-- examples/tests/13-ngap.rs:14604-14613 -/
def UE_associatedLogicalNG_connectionItemIE_Extensions : Ty := .sequenceOf (some 1) (some 65535) false UE_associatedLogicalNG_connectionItemIE_Extensions_Entry
/-- examples/tests/13-ngap.rs:6155-6164 -/
def UE_associatedLogicalNG_connectionItem : Ty := .sequence true 3 (.optional 0 AMF_UE_NGAP_ID (.optional 1 RAN_UE_NGAP_ID (.optional 2 UE_associatedLogicalNG_connectionItemIE_Extensions .nil)))
/-- examples/tests/13-ngap.rs:6166-6173 -/
def UE_associatedLogicalNG_connectionList : Ty := .sequenceOf (some 1) (some 65536) false UE_associatedLogicalNG_connectionItem
/-- examples/tests/13-ngap.rs:5274-5276 -/
def ResetAll : Ty := .enumerated .u8 (some 0) (some 0) true
/-- examples/tests/13-ngap.rs:5281-5290 -/
def ResetType : Ty := .choice 0 2 false (.cons 0 false ResetAll (.cons 1 false UE_associatedLogicalNG_connectionList (.cons 2 false ResetTypechoice_Extensions .nil)))
/-- examples/tests/13-ngap.rs:10591-10598 -/
def NGResetProtocolIEs_EntryValue : Ty := .openType (.cons 15 false Cause (.cons 88 false ResetType .nil))
/-- examples/tests/13-ngap.rs:10600-10607 -/
def NGResetProtocolIEs_Entry : Ty := .sequence false 0 (.required true ProtocolIE_ID (.required false Criticality (.required false NGResetProtocolIEs_EntryValue .nil)))
/-- examples/tests/13-ngap.rs:10609-10616 -/
def NGResetProtocolIEs : Ty := .sequenceOf (some 0) (some 65535) false NGResetProtocolIEs_Entry
/-- examples/tests/13-ngap.rs:3069-3073 -/
def NGReset : Ty := .sequence true 0 (.required false NGResetProtocolIEs .nil)
/-- examples/tests/13-ngap.rs:10528-10539 -/
def NASNonDeliveryIndicationProtocolIEs_EntryValue : Ty := .openType (.cons 10 false AMF_UE_NGAP_ID (.cons 15 false Cause (.cons 38 false NAS_PDU (.cons 85 false RAN_UE_NGAP_ID .nil))))
/-- examples/tests/13-ngap.rs:10541-10548 -/
def NASNonDeliveryIndicationProtocolIEs_Entry : Ty := .sequence false 0 (.required true ProtocolIE_ID (.required false Criticality (.required false NASNonDeliveryIndicationProtocolIEs_EntryValue .nil)))
/-- examples/tests/13-ngap.rs:10550-10557 -/
def NASNonDeliveryIndicationProtocolIEs : Ty := .sequenceOf (some 0) (some 65535) false NASNonDeliveryIndicationProtocolIEs_Entry
/-- examples/tests/13-ngap.rs:2941-2945 -/
def NASNonDeliveryIndication : Ty := .sequence true 0 (.required false NASNonDeliveryIndicationProtocolIEs .nil)
/-- examples/tests/13-ngap.rs:10251-10260 -/
def LocationReportingFailureIndicationProtocolIEs_EntryValue : Ty := .openType (.cons 10 false AMF_UE_NGAP_ID (.cons 15 false Cause (.cons 85 false RAN_UE_NGAP_ID .nil)))
/-- examples/tests/13-ngap.rs:10262-10269 -/
def LocationReportingFailureIndicationProtocolIEs_Entry : Ty := .sequence false 0 (.required true ProtocolIE_ID (.required false Criticality (.required false LocationReportingFailureIndicationProtocolIEs_EntryValue .nil)))
/-- examples/tests/13-ngap.rs:10271-10280 -/
def LocationReportingFailureIndicationProtocolIEs : Ty := .sequenceOf (some 0) (some 65535) false LocationReportingFailureIndicationProtocolIEs_Entry
/-- examples/tests/13-ngap.rs:2577-2581 -/
def LocationReportingFailureIndication : Ty := .sequence true 0 (.required false LocationReportingFailureIndicationProtocolIEs .nil)
/-- examples/tests/13-ngap.rs:10222-10231 -/
def LocationReportingControlProtocolIEs_EntryValue : Ty := .openType (.cons 10 false AMF_UE_NGAP_ID (.cons 33 false LocationReportingRequestType (.cons 85 false RAN_UE_NGAP_ID .nil)))
/-- examples/tests/13-ngap.rs:10233-10240 -/
def LocationReportingControlProtocolIEs_Entry : Ty := .sequence false 0 (.required true ProtocolIE_ID (.required false Criticality (.required false LocationReportingControlProtocolIEs_EntryValue .nil)))
/-- examples/tests/13-ngap.rs:10242-10249 -/
def LocationReportingControlProtocolIEs : Ty := .sequenceOf (some 0) (some 65535) false LocationReportingControlProtocolIEs_Entry
/-- examples/tests/13-ngap.rs:2571-2575 -/
def LocationReportingControl : Ty := .sequence true 0 (.required false LocationReportingControlProtocolIEs .nil)
/-- examples/tests/13-ngap.rs:15162-15164 -/
def UEPresenceInAreaOfInterestItemIE_Extensions_Entry : Ty := .sequence false 0 .nil
/-- examples/tests/13-ngap.rs:15166-15175 -/
def UEPresenceInAreaOfInterestItemIE_Extensions : Ty := .sequenceOf (some 1) (some 65535) false UEPresenceInAreaOfInterestItemIE_Extensions_Entry
/-- examples/tests/13-ngap.rs:6334-6336 -/
def UEPresence : Ty := .enumerated .u8 (some 0) (some 2) true
/-- examples/tests/13-ngap.rs:6343-6350 -/
def UEPresenceInAreaOfInterestItem : Ty := .sequence true 1 (.required false LocationReportingReferenceID (.required false UEPresence (.optional 0 UEPresenceInAreaOfInterestItemIE_Extensions .nil)))
/-- examples/tests/13-ngap.rs:6352-6354 -/
def UEPresenceInAreaOfInterestList : Ty := .sequenceOf (some 1) (some 64) false UEPresenceInAreaOfInterestItem
/-- examples/tests/13-ngap.rs:10189-10202 -/
def LocationReportProtocolIEs_EntryValue : Ty := .openType (.cons 10 false AMF_UE_NGAP_ID (.cons 33 false LocationReportingRequestType (.cons 85 false RAN_UE_NGAP_ID (.cons 116 false UEPresenceInAreaOfInterestList (.cons 121 false UserLocationInformation .nil)))))
/-- examples/tests/13-ngap.rs:10204-10211 -/
def LocationReportProtocolIEs_Entry : Ty := .sequence false 0 (.required true ProtocolIE_ID (.required false Criticality (.required false LocationReportProtocolIEs_EntryValue .nil)))
/-- examples/tests/13-ngap.rs:10213-10220 -/
def LocationReportProtocolIEs : Ty := .sequenceOf (some 0) (some 65535) false LocationReportProtocolIEs_Entry
/-- examples/tests/13-ngap.rs:2558-2562 -/
def LocationReport : Ty := .sequence true 0 (.required false LocationReportProtocolIEs .nil)
/-- examples/tests/13-ngap.rs:9867-10002 -/
def InitiatingMessageValue : Ty := .openType (.cons 64 false AMFCPRelocationIndication (.cons 0 false AMFConfigurationUpdate (.cons 1 false AMFStatusIndication (.cons 2 false CellTrafficTrace (.cons 65 false ConnectionEstablishmentIndication (.cons 3 false DeactivateTrace (.cons 4 false DownlinkNASTransport (.cons 5 false DownlinkNonUEAssociatedNRPPaTransport (.cons 6 false DownlinkRANConfigurationTransfer (.cons 63 false DownlinkRANEarlyStatusTransfer (.cons 7 false DownlinkRANStatusTransfer (.cons 54 false DownlinkRIMInformationTransfer (.cons 8 false DownlinkUEAssociatedNRPPaTransport (.cons 9 false ErrorIndication (.cons 10 false HandoverCancel (.cons 11 false HandoverNotify (.cons 12 false HandoverRequired (.cons 13 false HandoverRequest (.cons 61 false HandoverSuccess (.cons 14 false InitialContextSetupRequest (.cons 15 false InitialUEMessage (.cons 18 false LocationReport (.cons 16 false LocationReportingControl (.cons 17 false LocationReportingFailureIndication (.cons 19 false NASNonDeliveryIndication (.cons 20 false NGReset (.cons 21 false NGSetupRequest (.cons 22 false OverloadStart (.cons 23 false OverloadStop (.cons 26 false PDUSessionResourceModifyRequest (.cons 27 false PDUSessionResourceModifyIndication (.cons 30 false PDUSessionResourceNotify (.cons 28 false PDUSessionResourceReleaseCommand (.cons 29 false PDUSessionResourceSetupRequest (.cons 32 false PWSCancelRequest (.cons 33 false PWSFailureIndication (.cons 34 false PWSRestartIndication (.cons 24 false Paging (.cons 25 false PathSwitchRequest (.cons 31 false PrivateMessage (.cons 57 false RANCPRelocationIndication (.cons 35 false RANConfigurationUpdate (.cons 37 false RRCInactiveTransitionReport (.cons 36 false RerouteNASRequest (.cons 55 false RetrieveUEInformation (.cons 52 false SecondaryRATDataUsageReport (.cons 38 false TraceFailureIndication (.cons 39 false TraceStart (.cons 40 false UEContextModificationRequest (.cons 41 false UEContextReleaseCommand (.cons 42 false UEContextReleaseRequest (.cons 58 false UEContextResumeRequest (.cons 59 false UEContextSuspendRequest (.cons 56 false UEInformationTransfer (.cons 43 false UERadioCapabilityCheckRequest (.cons 60 false UERadioCapabilityIDMappingRequest (.cons 44 false UERadioCapabilityInfoIndication (.cons 45 false UETNLABindingReleaseRequest (.cons 46 false UplinkNASTransport (.cons 47 false UplinkNonUEAssociatedNRPPaTransport (.cons 48 false UplinkRANConfigurationTransfer (.cons 62 false UplinkRANEarlyStatusTransfer (.cons 49 false UplinkRANStatusTransfer (.cons 53 false UplinkRIMInformationTransfer (.cons 50 false UplinkUEAssociatedNRPPaTransport (.cons 51 false WriteReplaceWarningRequest .nil))))))))))))))))))))))))))))))))))))))))))))))))))))))))))))))))))
/-- examples/tests/13-ngap.rs:2318-2325 -/
def InitiatingMessage : Ty := .sequence false 0 (.required true ProcedureCode (.required false Criticality (.required false InitiatingMessageValue .nil)))
/-- examples/tests/13-ngap.rs:2327-2329 -/
def IntegrityProtectionIndication : Ty := .enumerated .u8 (some 0) (some 2) true
/-- examples/tests/13-ngap.rs:10157-10159 -/
def LastVisitedCellInformationchoice_Extensions : Ty := .sequence false 0 .nil
/-- examples/tests/13-ngap.rs:2519-2521 -/
def LastVisitedGERANCellInformation : Ty := .octetstring none none false
/-- examples/tests/13-ngap.rs:2537-2539 -/
def LastVisitedUTRANCellInformation : Ty := .octetstring none none false
/-- examples/tests/13-ngap.rs:2515-2517 -/
def LastVisitedEUTRANCellInformation : Ty := .octetstring none none false
/-- examples/tests/13-ngap.rs:10174-10176 -/
def LastVisitedNGRANCellInformationIE_Extensions_Entry : Ty := .sequence false 0 .nil
/-- examples/tests/13-ngap.rs:10178-10187 -/
def LastVisitedNGRANCellInformationIE_Extensions : Ty := .sequenceOf (some 1) (some 65535) false LastVisitedNGRANCellInformationIE_Extensions_Entry
/-- examples/tests/13-ngap.rs:6027-6029 -/
def TimeUEStayedInCellEnhancedGranularity : Ty := .integer .u16 (some 0) (some 40950) false
/-- examples/tests/13-ngap.rs:6023-6025 -/
def TimeUEStayedInCell : Ty := .integer .u16 (some 0) (some 4095) false
/-- examples/tests/13-ngap.rs:2523-2535 -/
def LastVisitedNGRANCellInformation : Ty := .sequence true 3 (.required false NGRAN_CGI (.required false CellType (.required false TimeUEStayedInCell (.optional 0 TimeUEStayedInCellEnhancedGranularity (.optional 1 Cause (.optional 2 LastVisitedNGRANCellInformationIE_Extensions .nil))))))
/-- examples/tests/13-ngap.rs:2492-2505 -/
def LastVisitedCellInformation : Ty := .choice 0 4 false (.cons 0 false LastVisitedNGRANCellInformation (.cons 1 false LastVisitedEUTRANCellInformation (.cons 2 false LastVisitedUTRANCellInformation (.cons 3 false LastVisitedGERANCellInformation (.cons 4 false LastVisitedCellInformationchoice_Extensions .nil)))))
/-- examples/tests/13-ngap.rs:10161-10163 -/
def LastVisitedCellItemIE_Extensions_Entry : Ty := .sequence false 0 .nil
/-- examples/tests/13-ngap.rs:10165-10172 -/
def LastVisitedCellItemIE_Extensions : Ty := .sequenceOf (some 1) (some 65535) false LastVisitedCellItemIE_Extensions_Entry
/-- examples/tests/13-ngap.rs:2507-2513 -/
def LastVisitedCellItem : Ty := .sequence true 1 (.required false LastVisitedCellInformation (.optional 0 LastVisitedCellItemIE_Extensions .nil))
/-- examples/tests/13-ngap.rs:2881-2883 -/
def MaximumIntegrityProtectedDataRate : Ty := .enumerated .u8 (some 0) (some 1) true
/-- examples/tests/13-ngap.rs:15001-15012 -/
def UEContextSuspendFailureProtocolIEs_EntryValue : Ty := .openType (.cons 10 false AMF_UE_NGAP_ID (.cons 15 false Cause (.cons 19 false CriticalityDiagnostics (.cons 85 false RAN_UE_NGAP_ID .nil))))
/-- examples/tests/13-ngap.rs:15014-15021 -/
def UEContextSuspendFailureProtocolIEs_Entry : Ty := .sequence false 0 (.required true ProtocolIE_ID (.required false Criticality (.required false UEContextSuspendFailureProtocolIEs_EntryValue .nil)))
/-- examples/tests/13-ngap.rs:15023-15030 -/
def UEContextSuspendFailureProtocolIEs : Ty := .sequenceOf (some 0) (some 65535) false UEContextSuspendFailureProtocolIEs_Entry
/-- examples/tests/13-ngap.rs:6270-6274 -/
def UEContextSuspendFailure : Ty := .sequence true 0 (.required false UEContextSuspendFailureProtocolIEs .nil)
/-- examples/tests/13-ngap.rs:14862-14873 -/
def UEContextResumeFailureProtocolIEs_EntryValue : Ty := .openType (.cons 10 false AMF_UE_NGAP_ID (.cons 15 false Cause (.cons 19 false CriticalityDiagnostics (.cons 85 false RAN_UE_NGAP_ID .nil))))
/-- examples/tests/13-ngap.rs:14875-14882 -/
def UEContextResumeFailureProtocolIEs_Entry : Ty := .sequence false 0 (.required true ProtocolIE_ID (.required false Criticality (.required false UEContextResumeFailureProtocolIEs_EntryValue .nil)))
/-- examples/tests/13-ngap.rs:14884-14891 -/
def UEContextResumeFailureProtocolIEs : Ty := .sequenceOf (some 0) (some 65535) false UEContextResumeFailureProtocolIEs_Entry
/-- examples/tests/13-ngap.rs:6234-6238 -/
def UEContextResumeFailure : Ty := .sequence true 0 (.required false UEContextResumeFailureProtocolIEs .nil)
/-- examples/tests/13-ngap.rs:14630-14641 -/
def UEContextModificationFailureProtocolIEs_EntryValue : Ty := .openType (.cons 10 false AMF_UE_NGAP_ID (.cons 15 false Cause (.cons 19 false CriticalityDiagnostics (.cons 85 false RAN_UE_NGAP_ID .nil))))
/-- examples/tests/13-ngap.rs:14643-14650 -/
def UEContextModificationFailureProtocolIEs_Entry : Ty := .sequence false 0 (.required true ProtocolIE_ID (.required false Criticality (.required false UEContextModificationFailureProtocolIEs_EntryValue .nil)))
/-- examples/tests/13-ngap.rs:14652-14661 -/
def UEContextModificationFailureProtocolIEs : Ty := .sequenceOf (some 0) (some 65535) false UEContextModificationFailureProtocolIEs_Entry
/-- examples/tests/13-ngap.rs:6191-6195 -/
def UEContextModificationFailure : Ty := .sequence true 0 (.required false UEContextModificationFailureProtocolIEs .nil)
/-- examples/tests/13-ngap.rs:13411-13420 -/
def RANConfigurationUpdateFailureProtocolIEs_EntryValue : Ty := .openType (.cons 15 false Cause (.cons 19 false CriticalityDiagnostics (.cons 107 false TimeToWait .nil)))
/-- examples/tests/13-ngap.rs:13422-13429 -/
def RANConfigurationUpdateFailureProtocolIEs_Entry : Ty := .sequence false 0 (.required true ProtocolIE_ID (.required false Criticality (.required false RANConfigurationUpdateFailureProtocolIEs_EntryValue .nil)))
/-- examples/tests/13-ngap.rs:13431-13440 -/
def RANConfigurationUpdateFailureProtocolIEs : Ty := .sequenceOf (some 0) (some 65535) false RANConfigurationUpdateFailureProtocolIEs_Entry
/-- examples/tests/13-ngap.rs:4971-4975 -/
def RANConfigurationUpdateFailure : Ty := .sequence true 0 (.required false RANConfigurationUpdateFailureProtocolIEs .nil)
/-- examples/tests/13-ngap.rs:11932-11934 -/
def PDUSessionResourceReleasedItemPSFailIE_Extensions_Entry : Ty := .sequence false 0 .nil
/-- examples/tests/13-ngap.rs:11936-11945 -/
def PDUSessionResourceReleasedItemPSFailIE_Extensions : Ty := .sequenceOf (some 1) (some 65535) false PDUSessionResourceReleasedItemPSFailIE_Extensions_Entry
/-- examples/tests/13-ngap.rs:11928-11930 -/
def OCTET_STRING_52 : Ty := .octetstring none none false
/-- examples/tests/13-ngap.rs:3975-3982 -/
def PDUSessionResourceReleasedItemPSFail : Ty := .sequence true 1 (.required false PDUSessionID (.required false OCTET_STRING_52 (.optional 0 PDUSessionResourceReleasedItemPSFailIE_Extensions .nil)))
/-- examples/tests/13-ngap.rs:4011-4018 -/
def PDUSessionResourceReleasedListPSFail : Ty := .sequenceOf (some 1) (some 256) false PDUSessionResourceReleasedItemPSFail
/-- examples/tests/13-ngap.rs:12831-12842 -/
def PathSwitchRequestFailureProtocolIEs_EntryValue : Ty := .openType (.cons 10 false AMF_UE_NGAP_ID (.cons 19 false CriticalityDiagnostics (.cons 69 false PDUSessionResourceReleasedListPSFail (.cons 85 false RAN_UE_NGAP_ID .nil))))
/-- examples/tests/13-ngap.rs:12844-12851 -/
def PathSwitchRequestFailureProtocolIEs_Entry : Ty := .sequence false 0 (.required true ProtocolIE_ID (.required false Criticality (.required false PathSwitchRequestFailureProtocolIEs_EntryValue .nil)))
/-- examples/tests/13-ngap.rs:12853-12860 -/
def PathSwitchRequestFailureProtocolIEs : Ty := .sequenceOf (some 0) (some 65535) false PathSwitchRequestFailureProtocolIEs_Entry
/-- examples/tests/13-ngap.rs:4574-4578 -/
def PathSwitchRequestFailure : Ty := .sequence true 0 (.required false PathSwitchRequestFailureProtocolIEs .nil)
/-- examples/tests/13-ngap.rs:10645-10654 -/
def NGSetupFailureProtocolIEs_EntryValue : Ty := .openType (.cons 15 false Cause (.cons 19 false CriticalityDiagnostics (.cons 107 false TimeToWait .nil)))
/-- examples/tests/13-ngap.rs:10656-10663 -/
def NGSetupFailureProtocolIEs_Entry : Ty := .sequence false 0 (.required true ProtocolIE_ID (.required false Criticality (.required false NGSetupFailureProtocolIEs_EntryValue .nil)))
/-- examples/tests/13-ngap.rs:10665-10672 -/
def NGSetupFailureProtocolIEs : Ty := .sequenceOf (some 0) (some 65535) false NGSetupFailureProtocolIEs_Entry
/-- examples/tests/13-ngap.rs:3081-3085 -/
def NGSetupFailure : Ty := .sequence true 0 (.required false NGSetupFailureProtocolIEs .nil)
/-- examples/tests/13-ngap.rs:15500-15523 -/
def UnsuccessfulOutcomeValue : Ty := .openType (.cons 0 false AMFConfigurationUpdateFailure (.cons 12 false HandoverPreparationFailure (.cons 13 false HandoverFailure (.cons 14 false InitialContextSetupFailure (.cons 21 false NGSetupFailure (.cons 25 false PathSwitchRequestFailure (.cons 35 false RANConfigurationUpdateFailure (.cons 40 false UEContextModificationFailure (.cons 58 false UEContextResumeFailure (.cons 59 false UEContextSuspendFailure .nil))))))))))
/-- examples/tests/13-ngap.rs:6548-6555 -/
def UnsuccessfulOutcome : Ty := .sequence false 0 (.required true ProcedureCode (.required false Criticality (.required false UnsuccessfulOutcomeValue .nil)))
/-- examples/tests/13-ngap.rs:16033-16044 -/
def WriteReplaceWarningResponseProtocolIEs_EntryValue : Ty := .openType (.cons 13 false BroadcastCompletedAreaList (.cons 19 false CriticalityDiagnostics (.cons 35 false MessageIdentifier (.cons 95 false SerialNumber .nil))))
/-- examples/tests/13-ngap.rs:16046-16053 -/
def WriteReplaceWarningResponseProtocolIEs_Entry : Ty := .sequence false 0 (.required true ProtocolIE_ID (.required false Criticality (.required false WriteReplaceWarningResponseProtocolIEs_EntryValue .nil)))
/-- examples/tests/13-ngap.rs:16055-16064 -/
def WriteReplaceWarningResponseProtocolIEs : Ty := .sequenceOf (some 0) (some 65535) false WriteReplaceWarningResponseProtocolIEs_Entry
/-- examples/tests/13-ngap.rs:6823-6827 -/
def WriteReplaceWarningResponse : Ty := .sequence true 0 (.required false WriteReplaceWarningResponseProtocolIEs .nil)
/-- examples/tests/13-ngap.rs:15301-15310 -/
def UERadioCapabilityIDMappingResponseProtocolIEs_EntryValue : Ty := .openType (.cons 19 false CriticalityDiagnostics (.cons 117 false UERadioCapability (.cons 264 false UERadioCapabilityID .nil)))
/-- examples/tests/13-ngap.rs:15312-15319 -/
def UERadioCapabilityIDMappingResponseProtocolIEs_Entry : Ty := .sequence false 0 (.required true ProtocolIE_ID (.required false Criticality (.required false UERadioCapabilityIDMappingResponseProtocolIEs_EntryValue .nil)))
/-- examples/tests/13-ngap.rs:15321-15330 -/
def UERadioCapabilityIDMappingResponseProtocolIEs : Ty := .sequenceOf (some 0) (some 65535) false UERadioCapabilityIDMappingResponseProtocolIEs_Entry
/-- examples/tests/13-ngap.rs:6416-6420 -/
def UERadioCapabilityIDMappingResponse : Ty := .sequence true 0 (.required false UERadioCapabilityIDMappingResponseProtocolIEs .nil)
/-- examples/tests/13-ngap.rs:15214-15225 -/
def UERadioCapabilityCheckResponseProtocolIEs_EntryValue : Ty := .openType (.cons 10 false AMF_UE_NGAP_ID (.cons 19 false CriticalityDiagnostics (.cons 30 false IMSVoiceSupportIndicator (.cons 85 false RAN_UE_NGAP_ID .nil))))
/-- examples/tests/13-ngap.rs:15227-15234 -/
def UERadioCapabilityCheckResponseProtocolIEs_Entry : Ty := .sequence false 0 (.required true ProtocolIE_ID (.required false Criticality (.required false UERadioCapabilityCheckResponseProtocolIEs_EntryValue .nil)))
/-- examples/tests/13-ngap.rs:15236-15245 -/
def UERadioCapabilityCheckResponseProtocolIEs : Ty := .sequenceOf (some 0) (some 65535) false UERadioCapabilityCheckResponseProtocolIEs_Entry
/-- examples/tests/13-ngap.rs:6377-6381 -/
def UERadioCapabilityCheckResponse : Ty := .sequence true 0 (.required false UERadioCapabilityCheckResponseProtocolIEs .nil)
/-- examples/tests/13-ngap.rs:15080-15091 -/
def UEContextSuspendResponseProtocolIEs_EntryValue : Ty := .openType (.cons 10 false AMF_UE_NGAP_ID (.cons 19 false CriticalityDiagnostics (.cons 85 false RAN_UE_NGAP_ID (.cons 93 false SecurityContext .nil))))
/-- examples/tests/13-ngap.rs:15093-15100 -/
def UEContextSuspendResponseProtocolIEs_Entry : Ty := .sequence false 0 (.required true ProtocolIE_ID (.required false Criticality (.required false UEContextSuspendResponseProtocolIEs_EntryValue .nil)))
/-- examples/tests/13-ngap.rs:15102-15109 -/
def UEContextSuspendResponseProtocolIEs : Ty := .sequenceOf (some 0) (some 65535) false UEContextSuspendResponseProtocolIEs_Entry
/-- examples/tests/13-ngap.rs:6291-6295 -/
def UEContextSuspendResponse : Ty := .sequence true 0 (.required false UEContextSuspendResponseProtocolIEs .nil)
/-- examples/tests/13-ngap.rs:5670-5672 -/
def Suspend_Response_Indication : Ty := .enumerated .u8 (some 0) (some 0) true
/-- examples/tests/13-ngap.rs:11989-11991 -/
def PDUSessionResourceResumeItemRESResIE_Extensions_Entry : Ty := .sequence false 0 .nil
/-- examples/tests/13-ngap.rs:11993-12002 -/
def PDUSessionResourceResumeItemRESResIE_Extensions : Ty := .sequenceOf (some 1) (some 65535) false PDUSessionResourceResumeItemRESResIE_Extensions_Entry
/-- examples/tests/13-ngap.rs:11985-11987 -/
def OCTET_STRING_55 : Ty := .octetstring none none false
/-- examples/tests/13-ngap.rs:4038-4045 -/
def PDUSessionResourceResumeItemRESRes : Ty := .sequence true 1 (.required false PDUSessionID (.required false OCTET_STRING_55 (.optional 0 PDUSessionResourceResumeItemRESResIE_Extensions .nil)))
/-- examples/tests/13-ngap.rs:4056-4063 -/
def PDUSessionResourceResumeListRESRes : Ty := .sequenceOf (some 1) (some 256) false PDUSessionResourceResumeItemRESRes
/-- examples/tests/13-ngap.rs:11065-11067 -/
def PDUSessionResourceFailedToResumeItemRESResIE_Extensions_Entry : Ty := .sequence false 0 .nil
/-- examples/tests/13-ngap.rs:11069-11078 -/
def PDUSessionResourceFailedToResumeItemRESResIE_Extensions : Ty := .sequenceOf (some 1) (some 65535) false PDUSessionResourceFailedToResumeItemRESResIE_Extensions_Entry
/-- examples/tests/13-ngap.rs:3504-3511 -/
def PDUSessionResourceFailedToResumeItemRESRes : Ty := .sequence true 1 (.required false PDUSessionID (.required false Cause (.optional 0 PDUSessionResourceFailedToResumeItemRESResIE_Extensions .nil)))
/-- examples/tests/13-ngap.rs:3524-3533 -/
def PDUSessionResourceFailedToResumeListRESRes : Ty := .sequenceOf (some 1) (some 256) false PDUSessionResourceFailedToResumeItemRESRes
/-- examples/tests/13-ngap.rs:14947-14966 -/
def UEContextResumeResponseProtocolIEs_EntryValue : Ty := .openType (.cons 10 false AMF_UE_NGAP_ID (.cons 19 false CriticalityDiagnostics (.cons 206 false Extended_ConnectedTime (.cons 230 false PDUSessionResourceFailedToResumeListRESRes (.cons 233 false PDUSessionResourceResumeListRESRes (.cons 85 false RAN_UE_NGAP_ID (.cons 93 false SecurityContext (.cons 236 false Suspend_Response_Indication .nil))))))))
/-- examples/tests/13-ngap.rs:14968-14975 -/
def UEContextResumeResponseProtocolIEs_Entry : Ty := .sequence false 0 (.required true ProtocolIE_ID (.required false Criticality (.required false UEContextResumeResponseProtocolIEs_EntryValue .nil)))
/-- examples/tests/13-ngap.rs:14977-14984 -/
def UEContextResumeResponseProtocolIEs : Ty := .sequenceOf (some 0) (some 65535) false UEContextResumeResponseProtocolIEs_Entry
/-- examples/tests/13-ngap.rs:6255-6259 -/
def UEContextResumeResponse : Ty := .sequence true 0 (.required false UEContextResumeResponseProtocolIEs .nil)
/-- examples/tests/13-ngap.rs:11209-11211 -/
def PDUSessionResourceItemCxtRelCplIE_Extensions_EntryExtensionValue : Ty := .openType .nil
/-- examples/tests/13-ngap.rs:11213-11220 -/
def PDUSessionResourceItemCxtRelCplIE_Extensions_Entry : Ty := .sequence false 0 (.required true ProtocolExtensionID (.required false Criticality (.required false PDUSessionResourceItemCxtRelCplIE_Extensions_EntryExtensionValue .nil)))
/-- examples/tests/13-ngap.rs:11222-11231 -/
def PDUSessionResourceItemCxtRelCplIE_Extensions : Ty := .sequenceOf (some 1) (some 65535) false PDUSessionResourceItemCxtRelCplIE_Extensions_Entry
/-- examples/tests/13-ngap.rs:3673-3679 -/
def PDUSessionResourceItemCxtRelCpl : Ty := .sequence true 1 (.required false PDUSessionID (.optional 0 PDUSessionResourceItemCxtRelCplIE_Extensions .nil))
/-- examples/tests/13-ngap.rs:3698-3705 -/
def PDUSessionResourceListCxtRelCpl : Ty := .sequenceOf (some 1) (some 256) false PDUSessionResourceItemCxtRelCpl
/-- examples/tests/13-ngap.rs:14794-14811 -/
def UEContextReleaseCompleteProtocolIEs_EntryValue : Ty := .openType (.cons 10 false AMF_UE_NGAP_ID (.cons 19 false CriticalityDiagnostics (.cons 32 false InfoOnRecommendedCellsAndRANNodesForPaging (.cons 60 false PDUSessionResourceListCxtRelCpl (.cons 207 false PagingAssisDataforCEcapabUE (.cons 85 false RAN_UE_NGAP_ID (.cons 121 false UserLocationInformation .nil)))))))
/-- examples/tests/13-ngap.rs:14813-14820 -/
def UEContextReleaseCompleteProtocolIEs_Entry : Ty := .sequence false 0 (.required true ProtocolIE_ID (.required false Criticality (.required false UEContextReleaseCompleteProtocolIEs_EntryValue .nil)))
/-- examples/tests/13-ngap.rs:14822-14829 -/
def UEContextReleaseCompleteProtocolIEs : Ty := .sequenceOf (some 0) (some 65535) false UEContextReleaseCompleteProtocolIEs_Entry
/-- examples/tests/13-ngap.rs:6215-6219 -/
def UEContextReleaseComplete : Ty := .sequence true 0 (.required false UEContextReleaseCompleteProtocolIEs .nil)
/-- examples/tests/13-ngap.rs:14732-14745 -/
def UEContextModificationResponseProtocolIEs_EntryValue : Ty := .openType (.cons 10 false AMF_UE_NGAP_ID (.cons 19 false CriticalityDiagnostics (.cons 85 false RAN_UE_NGAP_ID (.cons 92 false RRCState (.cons 121 false UserLocationInformation .nil)))))
/-- examples/tests/13-ngap.rs:14747-14754 -/
def UEContextModificationResponseProtocolIEs_Entry : Ty := .sequence false 0 (.required true ProtocolIE_ID (.required false Criticality (.required false UEContextModificationResponseProtocolIEs_EntryValue .nil)))
/-- examples/tests/13-ngap.rs:14756-14765 -/
def UEContextModificationResponseProtocolIEs : Ty := .sequenceOf (some 0) (some 65535) false UEContextModificationResponseProtocolIEs_Entry
/-- examples/tests/13-ngap.rs:6203-6207 -/
def UEContextModificationResponse : Ty := .sequence true 0 (.required false UEContextModificationResponseProtocolIEs .nil)
/-- examples/tests/13-ngap.rs:13384-13389 -/
def RANConfigurationUpdateAcknowledgeProtocolIEs_EntryValue : Ty := .openType (.cons 19 false CriticalityDiagnostics .nil)
/-- examples/tests/13-ngap.rs:13391-13398 -/
def RANConfigurationUpdateAcknowledgeProtocolIEs_Entry : Ty := .sequence false 0 (.required true ProtocolIE_ID (.required false Criticality (.required false RANConfigurationUpdateAcknowledgeProtocolIEs_EntryValue .nil)))
/-- examples/tests/13-ngap.rs:13400-13409 -/
def RANConfigurationUpdateAcknowledgeProtocolIEs : Ty := .sequenceOf (some 0) (some 65535) false RANConfigurationUpdateAcknowledgeProtocolIEs_Entry
/-- examples/tests/13-ngap.rs:4965-4969 -/
def RANConfigurationUpdateAcknowledge : Ty := .sequence true 0 (.required false RANConfigurationUpdateAcknowledgeProtocolIEs .nil)
/-- examples/tests/13-ngap.rs:12314-12316 -/
def PDUSessionResourceSwitchedItemIE_Extensions_Entry : Ty := .sequence false 0 .nil
/-- examples/tests/13-ngap.rs:12318-12327 -/
def PDUSessionResourceSwitchedItemIE_Extensions : Ty := .sequenceOf (some 1) (some 65535) false PDUSessionResourceSwitchedItemIE_Extensions_Entry
/-- examples/tests/13-ngap.rs:12310-12312 -/
def OCTET_STRING_63 : Ty := .octetstring none none false
/-- examples/tests/13-ngap.rs:4242-4249 -/
def PDUSessionResourceSwitchedItem : Ty := .sequence true 1 (.required false PDUSessionID (.required false OCTET_STRING_63 (.optional 0 PDUSessionResourceSwitchedItemIE_Extensions .nil)))
/-- examples/tests/13-ngap.rs:4251-4258 -/
def PDUSessionResourceSwitchedList : Ty := .sequenceOf (some 1) (some 256) false PDUSessionResourceSwitchedItem
/-- examples/tests/13-ngap.rs:11913-11915 -/
def PDUSessionResourceReleasedItemPSAckIE_Extensions_Entry : Ty := .sequence false 0 .nil
/-- examples/tests/13-ngap.rs:11917-11926 -/
def PDUSessionResourceReleasedItemPSAckIE_Extensions : Ty := .sequenceOf (some 1) (some 65535) false PDUSessionResourceReleasedItemPSAckIE_Extensions_Entry
/-- examples/tests/13-ngap.rs:11909-11911 -/
def OCTET_STRING_51 : Ty := .octetstring none none false
/-- examples/tests/13-ngap.rs:3966-3973 -/
def PDUSessionResourceReleasedItemPSAck : Ty := .sequence true 1 (.required false PDUSessionID (.required false OCTET_STRING_51 (.optional 0 PDUSessionResourceReleasedItemPSAckIE_Extensions .nil)))
/-- examples/tests/13-ngap.rs:4002-4009 -/
def PDUSessionResourceReleasedListPSAck : Ty := .sequenceOf (some 1) (some 256) false PDUSessionResourceReleasedItemPSAck
/-- examples/tests/13-ngap.rs:12723-12776 -/
def PathSwitchRequestAcknowledgeProtocolIEs_EntryValue : Ty := .openType (.cons 10 false AMF_UE_NGAP_ID (.cons 0 false AllowedNSSAI (.cons 222 false CEmodeBrestricted (.cons 165 false CNAssistedRANTuning (.cons 18 false CoreNetworkAssistanceInformationForInactive (.cons 19 false CriticalityDiagnostics (.cons 205 false Enhanced_CoverageRestriction (.cons 206 false Extended_ConnectedTime (.cons 217 false LTEUESidelinkAggregateMaximumBitrate (.cons 215 false LTEV2XServicesAuthorized (.cons 218 false NRUESidelinkAggregateMaximumBitrate (.cons 216 false NRV2XServicesAuthorized (.cons 41 false NewSecurityContextInd (.cons 219 false PC5QoSParameters (.cons 68 false PDUSessionResourceReleasedListPSAck (.cons 77 false PDUSessionResourceSwitchedList (.cons 85 false RAN_UE_NGAP_ID (.cons 91 false RRCInactiveTransitionReportRequest (.cons 146 false RedirectionVoiceFallback (.cons 177 false SRVCCOperationPossible (.cons 93 false SecurityContext (.cons 209 false UE_DifferentiationInfo (.cons 234 false UE_UP_CIoT_Support (.cons 264 false UERadioCapabilityID (.cons 119 false UESecurityCapabilities .nil)))))))))))))))))))))))))
/-- examples/tests/13-ngap.rs:12778-12785 -/
def PathSwitchRequestAcknowledgeProtocolIEs_Entry : Ty := .sequence false 0 (.required true ProtocolIE_ID (.required false Criticality (.required false PathSwitchRequestAcknowledgeProtocolIEs_EntryValue .nil)))
/-- examples/tests/13-ngap.rs:12787-12796 -/
def PathSwitchRequestAcknowledgeProtocolIEs : Ty := .sequenceOf (some 0) (some 65535) false PathSwitchRequestAcknowledgeProtocolIEs_Entry
/-- examples/tests/13-ngap.rs:4557-4561 -/
def PathSwitchRequestAcknowledge : Ty := .sequence true 0 (.required false PathSwitchRequestAcknowledgeProtocolIEs .nil)
/-- examples/tests/13-ngap.rs:12480-12491 -/
def PWSCancelResponseProtocolIEs_EntryValue : Ty := .openType (.cons 12 false BroadcastCancelledAreaList (.cons 19 false CriticalityDiagnostics (.cons 35 false MessageIdentifier (.cons 95 false SerialNumber .nil))))
/-- examples/tests/13-ngap.rs:12493-12500 -/
def PWSCancelResponseProtocolIEs_Entry : Ty := .sequence false 0 (.required true ProtocolIE_ID (.required false Criticality (.required false PWSCancelResponseProtocolIEs_EntryValue .nil)))
/-- examples/tests/13-ngap.rs:12502-12509 -/
def PWSCancelResponseProtocolIEs : Ty := .sequenceOf (some 0) (some 65535) false PWSCancelResponseProtocolIEs_Entry
/-- examples/tests/13-ngap.rs:4365-4369 -/
def PWSCancelResponse : Ty := .sequence true 0 (.required false PWSCancelResponseProtocolIEs .nil)
/-- examples/tests/13-ngap.rs:12103-12105 -/
def PDUSessionResourceSetupItemSUResIE_Extensions_Entry : Ty := .sequence false 0 .nil
/-- examples/tests/13-ngap.rs:12107-12116 -/
def PDUSessionResourceSetupItemSUResIE_Extensions : Ty := .sequenceOf (some 1) (some 65535) false PDUSessionResourceSetupItemSUResIE_Extensions_Entry
/-- examples/tests/13-ngap.rs:12099-12101 -/
def OCTET_STRING_61 : Ty := .octetstring none none false
/-- examples/tests/13-ngap.rs:4128-4135 -/
def PDUSessionResourceSetupItemSURes : Ty := .sequence true 1 (.required false PDUSessionID (.required false OCTET_STRING_61 (.optional 0 PDUSessionResourceSetupItemSUResIE_Extensions .nil)))
/-- examples/tests/13-ngap.rs:4173-4180 -/
def PDUSessionResourceSetupListSURes : Ty := .sequenceOf (some 1) (some 256) false PDUSessionResourceSetupItemSURes
/-- examples/tests/13-ngap.rs:11160-11162 -/
def PDUSessionResourceFailedToSetupItemSUResIE_Extensions_Entry : Ty := .sequence false 0 .nil
/-- examples/tests/13-ngap.rs:11164-11173 -/
def PDUSessionResourceFailedToSetupItemSUResIE_Extensions : Ty := .sequenceOf (some 1) (some 65535) false PDUSessionResourceFailedToSetupItemSUResIE_Extensions_Entry
/-- examples/tests/13-ngap.rs:11156-11158 -/
def OCTET_STRING_42 : Ty := .octetstring none none false
/-- examples/tests/13-ngap.rs:3571-3578 -/
def PDUSessionResourceFailedToSetupItemSURes : Ty := .sequence true 1 (.required false PDUSessionID (.required false OCTET_STRING_42 (.optional 0 PDUSessionResourceFailedToSetupItemSUResIE_Extensions .nil)))
/-- examples/tests/13-ngap.rs:3624-3633 -/
def PDUSessionResourceFailedToSetupListSURes : Ty := .sequenceOf (some 1) (some 256) false PDUSessionResourceFailedToSetupItemSURes
/-- examples/tests/13-ngap.rs:12208-12221 -/
def PDUSessionResourceSetupResponseProtocolIEs_EntryValue : Ty := .openType (.cons 10 false AMF_UE_NGAP_ID (.cons 19 false CriticalityDiagnostics (.cons 58 false PDUSessionResourceFailedToSetupListSURes (.cons 75 false PDUSessionResourceSetupListSURes (.cons 85 false RAN_UE_NGAP_ID .nil)))))
/-- examples/tests/13-ngap.rs:12223-12230 -/
def PDUSessionResourceSetupResponseProtocolIEs_Entry : Ty := .sequence false 0 (.required true ProtocolIE_ID (.required false Criticality (.required false PDUSessionResourceSetupResponseProtocolIEs_EntryValue .nil)))
/-- examples/tests/13-ngap.rs:12232-12241 -/
def PDUSessionResourceSetupResponseProtocolIEs : Ty := .sequenceOf (some 0) (some 65535) false PDUSessionResourceSetupResponseProtocolIEs_Entry
/-- examples/tests/13-ngap.rs:4194-4198 -/
def PDUSessionResourceSetupResponse : Ty := .sequence true 0 (.required false PDUSessionResourceSetupResponseProtocolIEs .nil)
/-- examples/tests/13-ngap.rs:11951-11953 -/
def PDUSessionResourceReleasedItemRelResIE_Extensions_Entry : Ty := .sequence false 0 .nil
/-- examples/tests/13-ngap.rs:11955-11964 -/
def PDUSessionResourceReleasedItemRelResIE_Extensions : Ty := .sequenceOf (some 1) (some 65535) false PDUSessionResourceReleasedItemRelResIE_Extensions_Entry
/-- examples/tests/13-ngap.rs:11947-11949 -/
def OCTET_STRING_53 : Ty := .octetstring none none false
/-- examples/tests/13-ngap.rs:3984-3991 -/
def PDUSessionResourceReleasedItemRelRes : Ty := .sequence true 1 (.required false PDUSessionID (.required false OCTET_STRING_53 (.optional 0 PDUSessionResourceReleasedItemRelResIE_Extensions .nil)))
/-- examples/tests/13-ngap.rs:4020-4027 -/
def PDUSessionResourceReleasedListRelRes : Ty := .sequenceOf (some 1) (some 256) false PDUSessionResourceReleasedItemRelRes
/-- examples/tests/13-ngap.rs:11828-11841 -/
def PDUSessionResourceReleaseResponseProtocolIEs_EntryValue : Ty := .openType (.cons 10 false AMF_UE_NGAP_ID (.cons 19 false CriticalityDiagnostics (.cons 70 false PDUSessionResourceReleasedListRelRes (.cons 85 false RAN_UE_NGAP_ID (.cons 121 false UserLocationInformation .nil)))))
/-- examples/tests/13-ngap.rs:11843-11850 -/
def PDUSessionResourceReleaseResponseProtocolIEs_Entry : Ty := .sequence false 0 (.required true ProtocolIE_ID (.required false Criticality (.required false PDUSessionResourceReleaseResponseProtocolIEs_EntryValue .nil)))
/-- examples/tests/13-ngap.rs:11852-11861 -/
def PDUSessionResourceReleaseResponseProtocolIEs : Ty := .sequenceOf (some 0) (some 65535) false PDUSessionResourceReleaseResponseProtocolIEs_Entry
/-- examples/tests/13-ngap.rs:3944-3948 -/
def PDUSessionResourceReleaseResponse : Ty := .sequence true 0 (.required false PDUSessionResourceReleaseResponseProtocolIEs .nil)
/-- examples/tests/13-ngap.rs:11419-11421 -/
def PDUSessionResourceModifyItemModCfmIE_Extensions_Entry : Ty := .sequence false 0 .nil
/-- examples/tests/13-ngap.rs:11423-11432 -/
def PDUSessionResourceModifyItemModCfmIE_Extensions : Ty := .sequenceOf (some 1) (some 65535) false PDUSessionResourceModifyItemModCfmIE_Extensions_Entry
/-- examples/tests/13-ngap.rs:11415-11417 -/
def OCTET_STRING_45 : Ty := .octetstring none none false
/-- examples/tests/13-ngap.rs:3768-3775 -/
def PDUSessionResourceModifyItemModCfm : Ty := .sequence true 1 (.required false PDUSessionID (.required false OCTET_STRING_45 (.optional 0 PDUSessionResourceModifyItemModCfmIE_Extensions .nil)))
/-- examples/tests/13-ngap.rs:3806-3813 -/
def PDUSessionResourceModifyListModCfm : Ty := .sequenceOf (some 1) (some 256) false PDUSessionResourceModifyItemModCfm
/-- examples/tests/13-ngap.rs:11016-11018 -/
def PDUSessionResourceFailedToModifyItemModCfmIE_Extensions_Entry : Ty := .sequence false 0 .nil
/-- examples/tests/13-ngap.rs:11020-11029 -/
def PDUSessionResourceFailedToModifyItemModCfmIE_Extensions : Ty := .sequenceOf (some 1) (some 65535) false PDUSessionResourceFailedToModifyItemModCfmIE_Extensions_Entry
/-- examples/tests/13-ngap.rs:11012-11014 -/
def OCTET_STRING_36 : Ty := .octetstring none none false
/-- examples/tests/13-ngap.rs:3455-3462 -/
def PDUSessionResourceFailedToModifyItemModCfm : Ty := .sequence true 1 (.required false PDUSessionID (.required false OCTET_STRING_36 (.optional 0 PDUSessionResourceFailedToModifyItemModCfmIE_Extensions .nil)))
/-- examples/tests/13-ngap.rs:3473-3482 -/
def PDUSessionResourceFailedToModifyListModCfm : Ty := .sequenceOf (some 1) (some 256) false PDUSessionResourceFailedToModifyItemModCfm
/-- examples/tests/13-ngap.rs:11267-11280 -/
def PDUSessionResourceModifyConfirmProtocolIEs_EntryValue : Ty := .openType (.cons 10 false AMF_UE_NGAP_ID (.cons 19 false CriticalityDiagnostics (.cons 131 false PDUSessionResourceFailedToModifyListModCfm (.cons 62 false PDUSessionResourceModifyListModCfm (.cons 85 false RAN_UE_NGAP_ID .nil)))))
/-- examples/tests/13-ngap.rs:11282-11289 -/
def PDUSessionResourceModifyConfirmProtocolIEs_Entry : Ty := .sequence false 0 (.required true ProtocolIE_ID (.required false Criticality (.required false PDUSessionResourceModifyConfirmProtocolIEs_EntryValue .nil)))
/-- examples/tests/13-ngap.rs:11291-11300 -/
def PDUSessionResourceModifyConfirmProtocolIEs : Ty := .sequenceOf (some 0) (some 65535) false PDUSessionResourceModifyConfirmProtocolIEs_Entry
/-- examples/tests/13-ngap.rs:3725-3729 -/
def PDUSessionResourceModifyConfirm : Ty := .sequence true 0 (.required false PDUSessionResourceModifyConfirmProtocolIEs .nil)
/-- examples/tests/13-ngap.rs:11488-11490 -/
def PDUSessionResourceModifyItemModResIE_Extensions_Entry : Ty := .sequence false 0 .nil
/-- examples/tests/13-ngap.rs:11492-11501 -/
def PDUSessionResourceModifyItemModResIE_Extensions : Ty := .sequenceOf (some 1) (some 65535) false PDUSessionResourceModifyItemModResIE_Extensions_Entry
/-- examples/tests/13-ngap.rs:11484-11486 -/
def OCTET_STRING_48 : Ty := .octetstring none none false
/-- examples/tests/13-ngap.rs:3797-3804 -/
def PDUSessionResourceModifyItemModRes : Ty := .sequence true 1 (.required false PDUSessionID (.required false OCTET_STRING_48 (.optional 0 PDUSessionResourceModifyItemModResIE_Extensions .nil)))
/-- examples/tests/13-ngap.rs:3833-3840 -/
def PDUSessionResourceModifyListModRes : Ty := .sequenceOf (some 1) (some 256) false PDUSessionResourceModifyItemModRes
/-- examples/tests/13-ngap.rs:11035-11037 -/
def PDUSessionResourceFailedToModifyItemModResIE_Extensions_Entry : Ty := .sequence false 0 .nil
/-- examples/tests/13-ngap.rs:11039-11048 -/
def PDUSessionResourceFailedToModifyItemModResIE_Extensions : Ty := .sequenceOf (some 1) (some 65535) false PDUSessionResourceFailedToModifyItemModResIE_Extensions_Entry
/-- examples/tests/13-ngap.rs:11031-11033 -/
def OCTET_STRING_37 : Ty := .octetstring none none false
/-- examples/tests/13-ngap.rs:3464-3471 -/
def PDUSessionResourceFailedToModifyItemModRes : Ty := .sequence true 1 (.required false PDUSessionID (.required false OCTET_STRING_37 (.optional 0 PDUSessionResourceFailedToModifyItemModResIE_Extensions .nil)))
/-- examples/tests/13-ngap.rs:3484-3493 -/
def PDUSessionResourceFailedToModifyListModRes : Ty := .sequenceOf (some 1) (some 256) false PDUSessionResourceFailedToModifyItemModRes
/-- examples/tests/13-ngap.rs:11583-11598 -/
def PDUSessionResourceModifyResponseProtocolIEs_EntryValue : Ty := .openType (.cons 10 false AMF_UE_NGAP_ID (.cons 19 false CriticalityDiagnostics (.cons 54 false PDUSessionResourceFailedToModifyListModRes (.cons 65 false PDUSessionResourceModifyListModRes (.cons 85 false RAN_UE_NGAP_ID (.cons 121 false UserLocationInformation .nil))))))
/-- examples/tests/13-ngap.rs:11600-11607 -/
def PDUSessionResourceModifyResponseProtocolIEs_Entry : Ty := .sequence false 0 (.required true ProtocolIE_ID (.required false Criticality (.required false PDUSessionResourceModifyResponseProtocolIEs_EntryValue .nil)))
/-- examples/tests/13-ngap.rs:11609-11618 -/
def PDUSessionResourceModifyResponseProtocolIEs : Ty := .sequenceOf (some 0) (some 65535) false PDUSessionResourceModifyResponseProtocolIEs_Entry
/-- examples/tests/13-ngap.rs:3854-3858 -/
def PDUSessionResourceModifyResponse : Ty := .sequence true 0 (.required false PDUSessionResourceModifyResponseProtocolIEs .nil)
/-- examples/tests/13-ngap.rs:10711-10730 -/
def NGSetupResponseProtocolIEs_EntryValue : Ty := .openType (.cons 1 false AMFName (.cons 19 false CriticalityDiagnostics (.cons 274 false Extended_AMFName (.cons 200 false IAB_Supported (.cons 80 false PLMNSupportList (.cons 86 false RelativeAMFCapacity (.cons 96 false ServedGUAMIList (.cons 147 false UERetentionInformation .nil))))))))
/-- examples/tests/13-ngap.rs:10732-10739 -/
def NGSetupResponseProtocolIEs_Entry : Ty := .sequence false 0 (.required true ProtocolIE_ID (.required false Criticality (.required false NGSetupResponseProtocolIEs_EntryValue .nil)))
/-- examples/tests/13-ngap.rs:10741-10748 -/
def NGSetupResponseProtocolIEs : Ty := .sequenceOf (some 0) (some 65535) false NGSetupResponseProtocolIEs_Entry
/-- examples/tests/13-ngap.rs:3093-3097 -/
def NGSetupResponse : Ty := .sequence true 0 (.required false NGSetupResponseProtocolIEs .nil)
/-- examples/tests/13-ngap.rs:10618-10625 -/
def NGResetAcknowledgeProtocolIEs_EntryValue : Ty := .openType (.cons 19 false CriticalityDiagnostics (.cons 111 false UE_associatedLogicalNG_connectionList .nil))
/-- examples/tests/13-ngap.rs:10627-10634 -/
def NGResetAcknowledgeProtocolIEs_Entry : Ty := .sequence false 0 (.required true ProtocolIE_ID (.required false Criticality (.required false NGResetAcknowledgeProtocolIEs_EntryValue .nil)))
/-- examples/tests/13-ngap.rs:10636-10643 -/
def NGResetAcknowledgeProtocolIEs : Ty := .sequenceOf (some 0) (some 65535) false NGResetAcknowledgeProtocolIEs_Entry
/-- examples/tests/13-ngap.rs:3075-3079 -/
def NGResetAcknowledge : Ty := .sequence true 0 (.required false NGResetAcknowledgeProtocolIEs .nil)
/-- examples/tests/13-ngap.rs:14084-14129 -/
def SuccessfulOutcomeValue : Ty := .openType (.cons 0 false AMFConfigurationUpdateAcknowledge (.cons 10 false HandoverCancelAcknowledge (.cons 12 false HandoverCommand (.cons 13 false HandoverRequestAcknowledge (.cons 14 false InitialContextSetupResponse (.cons 20 false NGResetAcknowledge (.cons 21 false NGSetupResponse (.cons 26 false PDUSessionResourceModifyResponse (.cons 27 false PDUSessionResourceModifyConfirm (.cons 28 false PDUSessionResourceReleaseResponse (.cons 29 false PDUSessionResourceSetupResponse (.cons 32 false PWSCancelResponse (.cons 25 false PathSwitchRequestAcknowledge (.cons 35 false RANConfigurationUpdateAcknowledge (.cons 40 false UEContextModificationResponse (.cons 41 false UEContextReleaseComplete (.cons 58 false UEContextResumeResponse (.cons 59 false UEContextSuspendResponse (.cons 43 false UERadioCapabilityCheckResponse (.cons 60 false UERadioCapabilityIDMappingResponse (.cons 51 false WriteReplaceWarningResponse .nil)))))))))))))))))))))
/-- examples/tests/13-ngap.rs:5636-5643 -/
def SuccessfulOutcome : Ty := .sequence false 0 (.required true ProcedureCode (.required false Criticality (.required false SuccessfulOutcomeValue .nil)))
/-- examples/tests/13-ngap.rs:3029-3038 -/
def NGAP_PDU : Ty := .choice 0 2 true (.cons 0 false InitiatingMessage (.cons 1 false SuccessfulOutcome (.cons 2 false UnsuccessfulOutcome .nil)))
/-- examples/tests/13-ngap.rs:3205-3207 -/
def NRMobilityHistoryReport : Ty := .octetstring none none false
/-- examples/tests/13-ngap.rs:3244-3246 -/
def NetworkInstance : Ty := .integer .u16 (some 1) (some 256) true
/-- examples/tests/13-ngap.rs:10851-10858 -/
def NonDynamic5QIDescriptorIE_Extensions_EntryExtensionValue : Ty := .openType (.cons 187 false ExtendedPacketDelayBudget (.cons 188 false ExtendedPacketDelayBudget .nil))
/-- examples/tests/13-ngap.rs:10860-10867 -/
def NonDynamic5QIDescriptorIE_Extensions_Entry : Ty := .sequence false 0 (.required true ProtocolExtensionID (.required false Criticality (.required false NonDynamic5QIDescriptorIE_Extensions_EntryExtensionValue .nil)))
/-- examples/tests/13-ngap.rs:10869-10878 -/
def NonDynamic5QIDescriptorIE_Extensions : Ty := .sequenceOf (some 1) (some 65535) false NonDynamic5QIDescriptorIE_Extensions_Entry
/-- examples/tests/13-ngap.rs:3280-3292 -/
def NonDynamic5QIDescriptor : Ty := .sequence true 4 (.required false FiveQI (.optional 0 PriorityLevelQos (.optional 1 AveragingWindow (.optional 2 MaximumDataBurstVolume (.optional 3 NonDynamic5QIDescriptorIE_Extensions .nil)))))
/-- examples/tests/13-ngap.rs:3298-3300 -/
def NotificationCause : Ty := .enumerated .u8 (some 0) (some 1) true
/-- examples/tests/13-ngap.rs:10978-10980 -/
def PDUSessionAggregateMaximumBitRateIE_Extensions_Entry : Ty := .sequence false 0 .nil
/-- examples/tests/13-ngap.rs:10982-10991 -/
def PDUSessionAggregateMaximumBitRateIE_Extensions : Ty := .sequenceOf (some 1) (some 65535) false PDUSessionAggregateMaximumBitRateIE_Extensions_Entry
/-- examples/tests/13-ngap.rs:3424-3431 -/
def PDUSessionAggregateMaximumBitRate : Ty := .sequence true 1 (.required false BitRate (.required false BitRate (.optional 0 PDUSessionAggregateMaximumBitRateIE_Extensions .nil)))
/-- examples/tests/13-ngap.rs:11194-11196 -/
def PDUSessionResourceInformationItemIE_Extensions_Entry : Ty := .sequence false 0 .nil
/-- examples/tests/13-ngap.rs:11198-11207 -/
def PDUSessionResourceInformationItemIE_Extensions : Ty := .sequenceOf (some 1) (some 65535) false PDUSessionResourceInformationItemIE_Extensions_Entry
/-- examples/tests/13-ngap.rs:6482-6484 -/
def ULForwarding : Ty := .enumerated .u8 (some 0) (some 0) true
/-- examples/tests/13-ngap.rs:13075-13080 -/
def QosFlowInformationItemIE_Extensions_EntryExtensionValue : Ty := .openType (.cons 163 false ULForwarding .nil)
/-- examples/tests/13-ngap.rs:13082-13089 -/
def QosFlowInformationItemIE_Extensions_Entry : Ty := .sequence false 0 (.required true ProtocolExtensionID (.required false Criticality (.required false QosFlowInformationItemIE_Extensions_EntryExtensionValue .nil)))
/-- examples/tests/13-ngap.rs:13091-13098 -/
def QosFlowInformationItemIE_Extensions : Ty := .sequenceOf (some 1) (some 65535) false QosFlowInformationItemIE_Extensions_Entry
/-- examples/tests/13-ngap.rs:4793-4801 -/
def QosFlowInformationItem : Ty := .sequence true 2 (.required false QosFlowIdentifier (.optional 0 DLForwarding (.optional 1 QosFlowInformationItemIE_Extensions .nil)))
/-- examples/tests/13-ngap.rs:4803-4805 -/
def QosFlowInformationList : Ty := .sequenceOf (some 1) (some 64) false QosFlowInformationItem
/-- examples/tests/13-ngap.rs:3653-3662 -/
def PDUSessionResourceInformationItem : Ty := .sequence true 2 (.required false PDUSessionID (.required false QosFlowInformationList (.optional 0 DRBsToQosFlowsMappingList (.optional 1 PDUSessionResourceInformationItemIE_Extensions .nil))))
/-- examples/tests/13-ngap.rs:3664-3671 -/
def PDUSessionResourceInformationList : Ty := .sequenceOf (some 1) (some 256) false PDUSessionResourceInformationItem
/-- examples/tests/13-ngap.rs:15472-15474 -/
def UPTransportLayerInformationPairItemIE_Extensions_Entry : Ty := .sequence false 0 .nil
/-- examples/tests/13-ngap.rs:15476-15485 -/
def UPTransportLayerInformationPairItemIE_Extensions : Ty := .sequenceOf (some 1) (some 65535) false UPTransportLayerInformationPairItemIE_Extensions_Entry
/-- examples/tests/13-ngap.rs:6510-6517 -/
def UPTransportLayerInformationPairItem : Ty := .sequence true 1 (.required false UPTransportLayerInformation (.required false UPTransportLayerInformation (.optional 0 UPTransportLayerInformationPairItemIE_Extensions .nil)))
/-- examples/tests/13-ngap.rs:6519-6521 -/
def UPTransportLayerInformationPairList : Ty := .sequenceOf (some 1) (some 3) false UPTransportLayerInformationPairItem
/-- examples/tests/13-ngap.rs:11302-11309 -/
def PDUSessionResourceModifyConfirmTransferIE_Extensions_EntryExtensionValue : Ty := .openType (.cons 185 false UPTransportLayerInformationPairList (.cons 195 false UPTransportLayerInformation .nil))
/-- examples/tests/13-ngap.rs:11311-11318 -/
def PDUSessionResourceModifyConfirmTransferIE_Extensions_Entry : Ty := .sequence false 0 (.required true ProtocolExtensionID (.required false Criticality (.required false PDUSessionResourceModifyConfirmTransferIE_Extensions_EntryExtensionValue .nil)))
/-- examples/tests/13-ngap.rs:11320-11329 -/
def PDUSessionResourceModifyConfirmTransferIE_Extensions : Ty := .sequenceOf (some 1) (some 65535) false PDUSessionResourceModifyConfirmTransferIE_Extensions_Entry
/-- examples/tests/13-ngap.rs:13156-13158 -/
def QosFlowModifyConfirmItemIE_Extensions_Entry : Ty := .sequence false 0 .nil
/-- examples/tests/13-ngap.rs:13160-13169 -/
def QosFlowModifyConfirmItemIE_Extensions : Ty := .sequenceOf (some 1) (some 65535) false QosFlowModifyConfirmItemIE_Extensions_Entry
/-- examples/tests/13-ngap.rs:4840-4846 -/
def QosFlowModifyConfirmItem : Ty := .sequence true 1 (.required false QosFlowIdentifier (.optional 0 QosFlowModifyConfirmItemIE_Extensions .nil))
/-- examples/tests/13-ngap.rs:4848-4850 -/
def QosFlowModifyConfirmList : Ty := .sequenceOf (some 1) (some 64) false QosFlowModifyConfirmItem
/-- examples/tests/13-ngap.rs:3731-3742 -/
def PDUSessionResourceModifyConfirmTransfer : Ty := .sequence true 3 (.required false QosFlowModifyConfirmList (.required false UPTransportLayerInformation (.optional 0 UPTransportLayerInformationPairList (.optional 1 QosFlowListWithCause (.optional 2 PDUSessionResourceModifyConfirmTransferIE_Extensions .nil)))))
/-- examples/tests/13-ngap.rs:13839-13841 -/
def SecondaryRATUsageInformationIE_Extension_Entry : Ty := .sequence false 0 .nil
/-- examples/tests/13-ngap.rs:13843-13852 -/
def SecondaryRATUsageInformationIE_Extension : Ty := .sequenceOf (some 1) (some 65535) false SecondaryRATUsageInformationIE_Extension_Entry
/-- examples/tests/13-ngap.rs:12962-12964 -/
def QoSFlowsUsageReport_ItemIE_Extensions_Entry : Ty := .sequence false 0 .nil
/-- examples/tests/13-ngap.rs:12966-12975 -/
def QoSFlowsUsageReport_ItemIE_Extensions : Ty := .sequenceOf (some 1) (some 65535) false QoSFlowsUsageReport_ItemIE_Extensions_Entry
/-- examples/tests/13-ngap.rs:15904-15906 -/
def VolumeTimedReport_ItemIE_Extensions_Entry : Ty := .sequence false 0 .nil
/-- examples/tests/13-ngap.rs:15908-15915 -/
def VolumeTimedReport_ItemIE_Extensions : Ty := .sequenceOf (some 1) (some 65535) false VolumeTimedReport_ItemIE_Extensions_Entry
/-- examples/tests/13-ngap.rs:15900-15902 -/
def INTEGER_92 : Ty := .integer .u64 (some 0) (some 18446744073709551615) false
/-- examples/tests/13-ngap.rs:15896-15898 -/
def INTEGER_91 : Ty := .integer .u64 (some 0) (some 18446744073709551615) false
/-- examples/tests/13-ngap.rs:15892-15894 -/
def OCTET_STRING_90 : Ty := .octetstring (some 4) (some 4) false
/-- examples/tests/13-ngap.rs:15888-15890 -/
def OCTET_STRING_89 : Ty := .octetstring (some 4) (some 4) false
/-- examples/tests/13-ngap.rs:6697-6706 -/
def VolumeTimedReport_Item : Ty := .sequence true 1 (.required false OCTET_STRING_89 (.required false OCTET_STRING_90 (.required false INTEGER_91 (.required false INTEGER_92 (.optional 0 VolumeTimedReport_ItemIE_Extensions .nil)))))
/-- examples/tests/13-ngap.rs:6708-6710 -/
def VolumeTimedReportList : Ty := .sequenceOf (some 1) (some 2) false VolumeTimedReport_Item
/-- examples/tests/13-ngap.rs:12954-12956 -/
def ENUMERATED_72 : Ty := .enumerated .u8 (some 0) (some 1) true
/-- examples/tests/13-ngap.rs:4706-4714 -/
def QoSFlowsUsageReport_Item : Ty := .sequence true 1 (.required false QosFlowIdentifier (.required false ENUMERATED_72 (.required false VolumeTimedReportList (.optional 0 QoSFlowsUsageReport_ItemIE_Extensions .nil))))
/-- examples/tests/13-ngap.rs:4716-4718 -/
def QoSFlowsUsageReportList : Ty := .sequenceOf (some 1) (some 64) false QoSFlowsUsageReport_Item
/-- examples/tests/13-ngap.rs:12394-12396 -/
def PDUSessionUsageReportIE_Extensions_Entry : Ty := .sequence false 0 .nil
/-- examples/tests/13-ngap.rs:12398-12405 -/
def PDUSessionUsageReportIE_Extensions : Ty := .sequenceOf (some 1) (some 65535) false PDUSessionUsageReportIE_Extensions_Entry
/-- examples/tests/13-ngap.rs:12386-12388 -/
def ENUMERATED_67 : Ty := .enumerated .u8 (some 0) (some 1) true
/-- examples/tests/13-ngap.rs:4325-4332 -/
def PDUSessionUsageReport : Ty := .sequence true 1 (.required false ENUMERATED_67 (.required false VolumeTimedReportList (.optional 0 PDUSessionUsageReportIE_Extensions .nil)))
/-- examples/tests/13-ngap.rs:5418-5427 -/
def SecondaryRATUsageInformation : Ty := .sequence true 3 (.optional 0 PDUSessionUsageReport (.optional 1 QoSFlowsUsageReportList (.optional 2 SecondaryRATUsageInformationIE_Extension .nil)))
/-- examples/tests/13-ngap.rs:11364-11377 -/
def PDUSessionResourceModifyIndicationTransferIE_Extensions_EntryExtensionValue : Ty := .openType (.cons 184 false QosFlowPerTNLInformationList (.cons 27 false GlobalRANNodeID (.cons 193 false QosFlowPerTNLInformation (.cons 144 false SecondaryRATUsageInformation (.cons 156 false SecurityResult .nil)))))
/-- examples/tests/13-ngap.rs:11379-11387 -/
def PDUSessionResourceModifyIndicationTransferIE_Extensions_Entry : Ty := .sequence false 0 (.required true ProtocolExtensionID (.required false Criticality (.required false PDUSessionResourceModifyIndicationTransferIE_Extensions_EntryExtensionValue .nil)))
/-- examples/tests/13-ngap.rs:11389-11398 -/
def PDUSessionResourceModifyIndicationTransferIE_Extensions : Ty := .sequenceOf (some 1) (some 65535) false PDUSessionResourceModifyIndicationTransferIE_Extensions_Entry
/-- examples/tests/13-ngap.rs:3750-3758 -/
def PDUSessionResourceModifyIndicationTransfer : Ty := .sequence true 2 (.required false QosFlowPerTNLInformation (.optional 0 QosFlowPerTNLInformationList (.optional 1 PDUSessionResourceModifyIndicationTransferIE_Extensions .nil)))
/-- examples/tests/13-ngap.rs:11400-11402 -/
def PDUSessionResourceModifyIndicationUnsuccessfulTransferIE_Extensions_Entry : Ty := .sequence false 0 .nil
/-- examples/tests/13-ngap.rs:11404-11413 -/
def PDUSessionResourceModifyIndicationUnsuccessfulTransferIE_Extensions : Ty := .sequenceOf (some 1) (some 65535) false PDUSessionResourceModifyIndicationUnsuccessfulTransferIE_Extensions_Entry
/-- examples/tests/13-ngap.rs:3760-3766 -/
def PDUSessionResourceModifyIndicationUnsuccessfulTransfer : Ty := .sequence true 1 (.required false Cause (.optional 0 PDUSessionResourceModifyIndicationUnsuccessfulTransferIE_Extensions .nil))
/-- examples/tests/13-ngap.rs:15424-15431 -/
def UL_NGU_UP_TNLModifyItemIE_Extensions_EntryExtensionValue : Ty := .openType (.cons 192 false UPTransportLayerInformation (.cons 195 false UPTransportLayerInformation .nil))
/-- examples/tests/13-ngap.rs:15433-15440 -/
def UL_NGU_UP_TNLModifyItemIE_Extensions_Entry : Ty := .sequence false 0 (.required true ProtocolExtensionID (.required false Criticality (.required false UL_NGU_UP_TNLModifyItemIE_Extensions_EntryExtensionValue .nil)))
/-- examples/tests/13-ngap.rs:15442-15451 -/
def UL_NGU_UP_TNLModifyItemIE_Extensions : Ty := .sequenceOf (some 1) (some 65535) false UL_NGU_UP_TNLModifyItemIE_Extensions_Entry
/-- examples/tests/13-ngap.rs:6469-6476 -/
def UL_NGU_UP_TNLModifyItem : Ty := .sequence true 1 (.required false UPTransportLayerInformation (.required false UPTransportLayerInformation (.optional 0 UL_NGU_UP_TNLModifyItemIE_Extensions .nil)))
/-- examples/tests/13-ngap.rs:6478-6480 -/
def UL_NGU_UP_TNLModifyList : Ty := .sequenceOf (some 1) (some 4) false UL_NGU_UP_TNLModifyItem
/-- examples/tests/13-ngap.rs:13867-13872 -/
def SecurityIndicationIE_Extensions_EntryExtensionValue : Ty := .openType (.cons 151 false MaximumIntegrityProtectedDataRate .nil)
/-- examples/tests/13-ngap.rs:13874-13881 -/
def SecurityIndicationIE_Extensions_Entry : Ty := .sequence false 0 (.required true ProtocolExtensionID (.required false Criticality (.required false SecurityIndicationIE_Extensions_EntryExtensionValue .nil)))
/-- examples/tests/13-ngap.rs:13883-13890 -/
def SecurityIndicationIE_Extensions : Ty := .sequenceOf (some 1) (some 65535) false SecurityIndicationIE_Extensions_Entry
/-- examples/tests/13-ngap.rs:5438-5447 -/
def SecurityIndication : Ty := .sequence true 2 (.required false IntegrityProtectionIndication (.required false ConfidentialityProtectionIndication (.optional 0 MaximumIntegrityProtectedDataRate (.optional 1 SecurityIndicationIE_Extensions .nil))))
/-- examples/tests/13-ngap.rs:14311-14313 -/
def TSCTrafficCharacteristicsIE_Extensions_Entry : Ty := .sequence false 0 .nil
/-- examples/tests/13-ngap.rs:14315-14324 -/
def TSCTrafficCharacteristicsIE_Extensions : Ty := .sequenceOf (some 1) (some 65535) false TSCTrafficCharacteristicsIE_Extensions_Entry
/-- examples/tests/13-ngap.rs:14296-14298 -/
def TSCAssistanceInformationIE_Extensions_Entry : Ty := .sequence false 0 .nil
/-- examples/tests/13-ngap.rs:14300-14309 -/
def TSCAssistanceInformationIE_Extensions : Ty := .sequenceOf (some 1) (some 65535) false TSCAssistanceInformationIE_Extensions_Entry
/-- examples/tests/13-ngap.rs:4621-4623 -/
def Periodicity : Ty := .integer .u32 (some 0) (some 640000) true
/-- examples/tests/13-ngap.rs:5874-5882 -/
def TSCAssistanceInformation : Ty := .sequence true 2 (.required false Periodicity (.optional 0 BurstArrivalTime (.optional 1 TSCAssistanceInformationIE_Extensions .nil)))
/-- examples/tests/13-ngap.rs:5884-5893 -/
def TSCTrafficCharacteristics : Ty := .sequence true 3 (.optional 0 TSCAssistanceInformation (.optional 1 TSCAssistanceInformation (.optional 2 TSCTrafficCharacteristicsIE_Extensions .nil)))
/-- examples/tests/13-ngap.rs:5187-5189 -/
def RedundantQosFlowIndicator : Ty := .enumerated .u8 (some 0) (some 1) false
/-- examples/tests/13-ngap.rs:13006-13013 -/
def QosFlowAddOrModifyRequestItemIE_Extensions_EntryExtensionValue : Ty := .openType (.cons 194 false RedundantQosFlowIndicator (.cons 196 false TSCTrafficCharacteristics .nil))
/-- examples/tests/13-ngap.rs:13015-13022 -/
def QosFlowAddOrModifyRequestItemIE_Extensions_Entry : Ty := .sequence false 0 (.required true ProtocolExtensionID (.required false Criticality (.required false QosFlowAddOrModifyRequestItemIE_Extensions_EntryExtensionValue .nil)))
/-- examples/tests/13-ngap.rs:13024-13033 -/
def QosFlowAddOrModifyRequestItemIE_Extensions : Ty := .sequenceOf (some 1) (some 65535) false QosFlowAddOrModifyRequestItemIE_Extensions_Entry
/-- examples/tests/13-ngap.rs:4940-4942 -/
def QosMonitoringRequest : Ty := .enumerated .u8 (some 0) (some 2) true
/-- examples/tests/13-ngap.rs:4936-4938 -/
def QosMonitoringReportingFrequency : Ty := .integer .u16 (some 1) (some 1800) true
/-- examples/tests/13-ngap.rs:13127-13134 -/
def QosFlowLevelQosParametersIE_Extensions_EntryExtensionValue : Ty := .openType (.cons 276 false QosMonitoringReportingFrequency (.cons 181 false QosMonitoringRequest .nil))
/-- examples/tests/13-ngap.rs:13136-13143 -/
def QosFlowLevelQosParametersIE_Extensions_Entry : Ty := .sequence false 0 (.required true ProtocolExtensionID (.required false Criticality (.required false QosFlowLevelQosParametersIE_Extensions_EntryExtensionValue .nil)))
/-- examples/tests/13-ngap.rs:13145-13154 -/
def QosFlowLevelQosParametersIE_Extensions : Ty := .sequenceOf (some 1) (some 65535) false QosFlowLevelQosParametersIE_Extensions_Entry
/-- examples/tests/13-ngap.rs:5195-5197 -/
def ReflectiveQosAttribute : Ty := .enumerated .u8 (some 0) (some 0) true
/-- examples/tests/13-ngap.rs:12977-12979 -/
def QosCharacteristicschoice_Extensions : Ty := .sequence false 0 .nil
/-- examples/tests/13-ngap.rs:4720-4729 -/
def QosCharacteristics : Ty := .choice 0 2 false (.cons 0 false NonDynamic5QIDescriptor (.cons 1 false Dynamic5QIDescriptor (.cons 2 false QosCharacteristicschoice_Extensions .nil)))
/-- examples/tests/13-ngap.rs:4817-4830 -/
def QosFlowLevelQosParameters : Ty := .sequence true 4 (.required false QosCharacteristics (.required false AllocationAndRetentionPriority (.optional 0 GBR_QosInformation (.optional 1 ReflectiveQosAttribute (.optional 2 AdditionalQosFlowInformation (.optional 3 QosFlowLevelQosParametersIE_Extensions .nil))))))
/-- examples/tests/13-ngap.rs:4743-4753 -/
def QosFlowAddOrModifyRequestItem : Ty := .sequence true 3 (.required false QosFlowIdentifier (.optional 0 QosFlowLevelQosParameters (.optional 1 E_RAB_ID (.optional 2 QosFlowAddOrModifyRequestItemIE_Extensions .nil))))
/-- examples/tests/13-ngap.rs:4755-4757 -/
def QosFlowAddOrModifyRequestList : Ty := .sequenceOf (some 1) (some 64) false QosFlowAddOrModifyRequestItem
/-- examples/tests/13-ngap.rs:11536-11561 -/
def PDUSessionResourceModifyRequestTransferProtocolIEs_EntryValue : Ty := .openType (.cons 186 false UPTransportLayerInformationList (.cons 126 false UPTransportLayerInformationList (.cons 166 false CommonNetworkInstance (.cons 129 false NetworkInstance (.cons 130 false PDUSessionAggregateMaximumBitRate (.cons 135 false QosFlowAddOrModifyRequestList (.cons 137 false QosFlowListWithCause (.cons 190 false CommonNetworkInstance (.cons 195 false UPTransportLayerInformation (.cons 138 false SecurityIndication (.cons 140 false UL_NGU_UP_TNLModifyList .nil)))))))))))
/-- examples/tests/13-ngap.rs:11563-11570 -/
def PDUSessionResourceModifyRequestTransferProtocolIEs_Entry : Ty := .sequence false 0 (.required true ProtocolIE_ID (.required false Criticality (.required false PDUSessionResourceModifyRequestTransferProtocolIEs_EntryValue .nil)))
/-- examples/tests/13-ngap.rs:11572-11581 -/
def PDUSessionResourceModifyRequestTransferProtocolIEs : Ty := .sequenceOf (some 0) (some 65535) false PDUSessionResourceModifyRequestTransferProtocolIEs_Entry
/-- examples/tests/13-ngap.rs:3848-3852 -/
def PDUSessionResourceModifyRequestTransfer : Ty := .sequence true 0 (.required false PDUSessionResourceModifyRequestTransferProtocolIEs .nil)
/-- examples/tests/13-ngap.rs:11620-11633 -/
def PDUSessionResourceModifyResponseTransferIE_Extensions_EntryExtensionValue : Ty := .openType (.cons 154 false UPTransportLayerInformationPairList (.cons 184 false QosFlowPerTNLInformationList (.cons 185 false UPTransportLayerInformationPairList (.cons 192 false UPTransportLayerInformation (.cons 195 false UPTransportLayerInformation .nil)))))
/-- examples/tests/13-ngap.rs:11635-11642 -/
def PDUSessionResourceModifyResponseTransferIE_Extensions_Entry : Ty := .sequence false 0 (.required true ProtocolExtensionID (.required false Criticality (.required false PDUSessionResourceModifyResponseTransferIE_Extensions_EntryExtensionValue .nil)))
/-- examples/tests/13-ngap.rs:11644-11653 -/
def PDUSessionResourceModifyResponseTransferIE_Extensions : Ty := .sequenceOf (some 1) (some 65535) false PDUSessionResourceModifyResponseTransferIE_Extensions_Entry
/-- examples/tests/13-ngap.rs:13035-13040 -/
def QosFlowAddOrModifyResponseItemIE_Extensions_EntryExtensionValue : Ty := .openType (.cons 221 false AlternativeQoSParaSetIndex .nil)
/-- examples/tests/13-ngap.rs:13042-13049 -/
def QosFlowAddOrModifyResponseItemIE_Extensions_Entry : Ty := .sequence false 0 (.required true ProtocolExtensionID (.required false Criticality (.required false QosFlowAddOrModifyResponseItemIE_Extensions_EntryExtensionValue .nil)))
/-- examples/tests/13-ngap.rs:13051-13060 -/
def QosFlowAddOrModifyResponseItemIE_Extensions : Ty := .sequenceOf (some 1) (some 65535) false QosFlowAddOrModifyResponseItemIE_Extensions_Entry
/-- examples/tests/13-ngap.rs:4759-4765 -/
def QosFlowAddOrModifyResponseItem : Ty := .sequence true 1 (.required false QosFlowIdentifier (.optional 0 QosFlowAddOrModifyResponseItemIE_Extensions .nil))
/-- examples/tests/13-ngap.rs:4767-4769 -/
def QosFlowAddOrModifyResponseList : Ty := .sequenceOf (some 1) (some 64) false QosFlowAddOrModifyResponseItem
/-- examples/tests/13-ngap.rs:3860-3875 -/
def PDUSessionResourceModifyResponseTransfer : Ty := .sequence true 6 (.optional 0 UPTransportLayerInformation (.optional 1 UPTransportLayerInformation (.optional 2 QosFlowAddOrModifyResponseList (.optional 3 QosFlowPerTNLInformationList (.optional 4 QosFlowListWithCause (.optional 5 PDUSessionResourceModifyResponseTransferIE_Extensions .nil))))))
/-- examples/tests/13-ngap.rs:11655-11657 -/
def PDUSessionResourceModifyUnsuccessfulTransferIE_Extensions_Entry : Ty := .sequence false 0 .nil
/-- examples/tests/13-ngap.rs:11659-11668 -/
def PDUSessionResourceModifyUnsuccessfulTransferIE_Extensions : Ty := .sequenceOf (some 1) (some 65535) false PDUSessionResourceModifyUnsuccessfulTransferIE_Extensions_Entry
/-- examples/tests/13-ngap.rs:3877-3885 -/
def PDUSessionResourceModifyUnsuccessfulTransfer : Ty := .sequence true 2 (.required false Cause (.optional 0 CriticalityDiagnostics (.optional 1 PDUSessionResourceModifyUnsuccessfulTransferIE_Extensions .nil)))
/-- examples/tests/13-ngap.rs:11722-11727 -/
def PDUSessionResourceNotifyReleasedTransferIE_Extensions_EntryExtensionValue : Ty := .openType (.cons 144 false SecondaryRATUsageInformation .nil)
/-- examples/tests/13-ngap.rs:11729-11736 -/
def PDUSessionResourceNotifyReleasedTransferIE_Extensions_Entry : Ty := .sequence false 0 (.required true ProtocolExtensionID (.required false Criticality (.required false PDUSessionResourceNotifyReleasedTransferIE_Extensions_EntryExtensionValue .nil)))
/-- examples/tests/13-ngap.rs:11738-11747 -/
def PDUSessionResourceNotifyReleasedTransferIE_Extensions : Ty := .sequenceOf (some 1) (some 65535) false PDUSessionResourceNotifyReleasedTransferIE_Extensions_Entry
/-- examples/tests/13-ngap.rs:3911-3917 -/
def PDUSessionResourceNotifyReleasedTransfer : Ty := .sequence true 1 (.required false Cause (.optional 0 PDUSessionResourceNotifyReleasedTransferIE_Extensions .nil))
/-- examples/tests/13-ngap.rs:13062-13064 -/
def QosFlowFeedbackItemIE_Extensions_Entry : Ty := .sequence false 0 .nil
/-- examples/tests/13-ngap.rs:13066-13073 -/
def QosFlowFeedbackItemIE_Extensions : Ty := .sequenceOf (some 1) (some 65535) false QosFlowFeedbackItemIE_Extensions_Entry
/-- examples/tests/13-ngap.rs:6557-6559 -/
def UpdateFeedback : Ty := .bitstring (some 8) (some 8) true
/-- examples/tests/13-ngap.rs:4771-4783 -/
def QosFlowFeedbackItem : Ty := .sequence true 4 (.required false QosFlowIdentifier (.optional 0 UpdateFeedback (.optional 1 ExtendedPacketDelayBudget (.optional 2 ExtendedPacketDelayBudget (.optional 3 QosFlowFeedbackItemIE_Extensions .nil)))))
/-- examples/tests/13-ngap.rs:4785-4787 -/
def QosFlowFeedbackList : Ty := .sequenceOf (some 1) (some 64) false QosFlowFeedbackItem
/-- examples/tests/13-ngap.rs:11749-11756 -/
def PDUSessionResourceNotifyTransferIE_Extensions_EntryExtensionValue : Ty := .openType (.cons 278 false QosFlowFeedbackList (.cons 144 false SecondaryRATUsageInformation .nil))
/-- examples/tests/13-ngap.rs:11758-11765 -/
def PDUSessionResourceNotifyTransferIE_Extensions_Entry : Ty := .sequence false 0 (.required true ProtocolExtensionID (.required false Criticality (.required false PDUSessionResourceNotifyTransferIE_Extensions_EntryExtensionValue .nil)))
/-- examples/tests/13-ngap.rs:11767-11776 -/
def PDUSessionResourceNotifyTransferIE_Extensions : Ty := .sequenceOf (some 1) (some 65535) false PDUSessionResourceNotifyTransferIE_Extensions_Entry
/-- examples/tests/13-ngap.rs:13171-13176 -/
def QosFlowNotifyItemIE_Extensions_EntryExtensionValue : Ty := .openType (.cons 221 false AlternativeQoSParaSetNotifyIndex .nil)
/-- examples/tests/13-ngap.rs:13178-13185 -/
def QosFlowNotifyItemIE_Extensions_Entry : Ty := .sequence false 0 (.required true ProtocolExtensionID (.required false Criticality (.required false QosFlowNotifyItemIE_Extensions_EntryExtensionValue .nil)))
/-- examples/tests/13-ngap.rs:13187-13194 -/
def QosFlowNotifyItemIE_Extensions : Ty := .sequenceOf (some 1) (some 65535) false QosFlowNotifyItemIE_Extensions_Entry
/-- examples/tests/13-ngap.rs:4852-4859 -/
def QosFlowNotifyItem : Ty := .sequence true 1 (.required false QosFlowIdentifier (.required false NotificationCause (.optional 0 QosFlowNotifyItemIE_Extensions .nil)))
/-- examples/tests/13-ngap.rs:4861-4863 -/
def QosFlowNotifyList : Ty := .sequenceOf (some 1) (some 64) false QosFlowNotifyItem
/-- examples/tests/13-ngap.rs:3919-3928 -/
def PDUSessionResourceNotifyTransfer : Ty := .sequence true 3 (.optional 0 QosFlowNotifyList (.optional 1 QosFlowListWithCause (.optional 2 PDUSessionResourceNotifyTransferIE_Extensions .nil)))
/-- examples/tests/13-ngap.rs:11813-11815 -/
def PDUSessionResourceReleaseCommandTransferIE_Extensions_Entry : Ty := .sequence false 0 .nil
/-- examples/tests/13-ngap.rs:11817-11826 -/
def PDUSessionResourceReleaseCommandTransferIE_Extensions : Ty := .sequenceOf (some 1) (some 65535) false PDUSessionResourceReleaseCommandTransferIE_Extensions_Entry
/-- examples/tests/13-ngap.rs:3936-3942 -/
def PDUSessionResourceReleaseCommandTransfer : Ty := .sequence true 1 (.required false Cause (.optional 0 PDUSessionResourceReleaseCommandTransferIE_Extensions .nil))
/-- examples/tests/13-ngap.rs:11863-11868 -/
def PDUSessionResourceReleaseResponseTransferIE_Extensions_EntryExtensionValue : Ty := .openType (.cons 144 false SecondaryRATUsageInformation .nil)
/-- examples/tests/13-ngap.rs:11870-11877 -/
def PDUSessionResourceReleaseResponseTransferIE_Extensions_Entry : Ty := .sequence false 0 (.required true ProtocolExtensionID (.required false Criticality (.required false PDUSessionResourceReleaseResponseTransferIE_Extensions_EntryExtensionValue .nil)))
/-- examples/tests/13-ngap.rs:11879-11888 -/
def PDUSessionResourceReleaseResponseTransferIE_Extensions : Ty := .sequenceOf (some 1) (some 65535) false PDUSessionResourceReleaseResponseTransferIE_Extensions_Entry
/-- examples/tests/13-ngap.rs:3950-3955 -/
def PDUSessionResourceReleaseResponseTransfer : Ty := .sequence true 1 (.optional 0 PDUSessionResourceReleaseResponseTransferIE_Extensions .nil)
/-- examples/tests/13-ngap.rs:13255-13262 -/
def QosFlowSetupRequestItemIE_Extensions_EntryExtensionValue : Ty := .openType (.cons 194 false RedundantQosFlowIndicator (.cons 196 false TSCTrafficCharacteristics .nil))
/-- examples/tests/13-ngap.rs:13264-13271 -/
def QosFlowSetupRequestItemIE_Extensions_Entry : Ty := .sequence false 0 (.required true ProtocolExtensionID (.required false Criticality (.required false QosFlowSetupRequestItemIE_Extensions_EntryExtensionValue .nil)))
/-- examples/tests/13-ngap.rs:13273-13282 -/
def QosFlowSetupRequestItemIE_Extensions : Ty := .sequenceOf (some 1) (some 65535) false QosFlowSetupRequestItemIE_Extensions_Entry
/-- examples/tests/13-ngap.rs:4900-4909 -/
def QosFlowSetupRequestItem : Ty := .sequence true 2 (.required false QosFlowIdentifier (.required false QosFlowLevelQosParameters (.optional 0 E_RAB_ID (.optional 1 QosFlowSetupRequestItemIE_Extensions .nil))))
/-- examples/tests/13-ngap.rs:4911-4913 -/
def QosFlowSetupRequestList : Ty := .sequenceOf (some 1) (some 64) false QosFlowSetupRequestItem
/-- examples/tests/13-ngap.rs:4314-4316 -/
def PDUSessionType : Ty := .enumerated .u8 (some 0) (some 4) true
/-- examples/tests/13-ngap.rs:12155-12186 -/
def PDUSessionResourceSetupRequestTransferProtocolIEs_EntryValue : Ty := .openType (.cons 186 false UPTransportLayerInformationList (.cons 126 false UPTransportLayerInformationList (.cons 166 false CommonNetworkInstance (.cons 127 false DataForwardingNotPossible (.cons 22 false DirectForwardingPathAvailability (.cons 129 false NetworkInstance (.cons 130 false PDUSessionAggregateMaximumBitRate (.cons 134 false PDUSessionType (.cons 136 false QosFlowSetupRequestList (.cons 190 false CommonNetworkInstance (.cons 197 false RedundantPDUSessionInformation (.cons 195 false UPTransportLayerInformation (.cons 138 false SecurityIndication (.cons 139 false UPTransportLayerInformation .nil))))))))))))))
/-- examples/tests/13-ngap.rs:12188-12195 -/
def PDUSessionResourceSetupRequestTransferProtocolIEs_Entry : Ty := .sequence false 0 (.required true ProtocolIE_ID (.required false Criticality (.required false PDUSessionResourceSetupRequestTransferProtocolIEs_EntryValue .nil)))
/-- examples/tests/13-ngap.rs:12197-12206 -/
def PDUSessionResourceSetupRequestTransferProtocolIEs : Ty := .sequenceOf (some 0) (some 65535) false PDUSessionResourceSetupRequestTransferProtocolIEs_Entry
/-- examples/tests/13-ngap.rs:4188-4192 -/
def PDUSessionResourceSetupRequestTransfer : Ty := .sequence true 0 (.required false PDUSessionResourceSetupRequestTransferProtocolIEs .nil)
/-- examples/tests/13-ngap.rs:12243-12254 -/
def PDUSessionResourceSetupResponseTransferIE_Extensions_EntryExtensionValue : Ty := .openType (.cons 184 false QosFlowPerTNLInformationList (.cons 27 false GlobalRANNodeID (.cons 193 false QosFlowPerTNLInformation (.cons 198 false RedundantPDUSessionInformation .nil))))
/-- examples/tests/13-ngap.rs:12256-12263 -/
def PDUSessionResourceSetupResponseTransferIE_Extensions_Entry : Ty := .sequence false 0 (.required true ProtocolExtensionID (.required false Criticality (.required false PDUSessionResourceSetupResponseTransferIE_Extensions_EntryExtensionValue .nil)))
/-- examples/tests/13-ngap.rs:12265-12274 -/
def PDUSessionResourceSetupResponseTransferIE_Extensions : Ty := .sequenceOf (some 1) (some 65535) false PDUSessionResourceSetupResponseTransferIE_Extensions_Entry
/-- examples/tests/13-ngap.rs:4200-4212 -/
def PDUSessionResourceSetupResponseTransfer : Ty := .sequence true 4 (.required false QosFlowPerTNLInformation (.optional 0 QosFlowPerTNLInformationList (.optional 1 SecurityResult (.optional 2 QosFlowListWithCause (.optional 3 PDUSessionResourceSetupResponseTransferIE_Extensions .nil)))))
/-- examples/tests/13-ngap.rs:12276-12278 -/
def PDUSessionResourceSetupUnsuccessfulTransferIE_Extensions_Entry : Ty := .sequence false 0 .nil
/-- examples/tests/13-ngap.rs:12280-12289 -/
def PDUSessionResourceSetupUnsuccessfulTransferIE_Extensions : Ty := .sequenceOf (some 1) (some 65535) false PDUSessionResourceSetupUnsuccessfulTransferIE_Extensions_Entry
/-- examples/tests/13-ngap.rs:4214-4222 -/
def PDUSessionResourceSetupUnsuccessfulTransfer : Ty := .sequence true 2 (.required false Cause (.optional 0 CriticalityDiagnostics (.optional 1 PDUSessionResourceSetupUnsuccessfulTransferIE_Extensions .nil)))
/-- examples/tests/13-ngap.rs:13196-13205 -/
def QosFlowParametersItemIE_Extensions_EntryExtensionValue : Ty := .openType (.cons 279 false BurstArrivalTime (.cons 187 false ExtendedPacketDelayBudget (.cons 188 false ExtendedPacketDelayBudget .nil)))
/-- examples/tests/13-ngap.rs:13207-13214 -/
def QosFlowParametersItemIE_Extensions_Entry : Ty := .sequence false 0 (.required true ProtocolExtensionID (.required false Criticality (.required false QosFlowParametersItemIE_Extensions_EntryExtensionValue .nil)))
/-- examples/tests/13-ngap.rs:13216-13223 -/
def QosFlowParametersItemIE_Extensions : Ty := .sequenceOf (some 1) (some 65535) false QosFlowParametersItemIE_Extensions_Entry
/-- examples/tests/13-ngap.rs:4865-4873 -/
def QosFlowParametersItem : Ty := .sequence true 2 (.required false QosFlowIdentifier (.optional 0 AlternativeQoSParaSetList (.optional 1 QosFlowParametersItemIE_Extensions .nil)))
/-- examples/tests/13-ngap.rs:4875-4877 -/
def QosFlowParametersList : Ty := .sequenceOf (some 1) (some 64) false QosFlowParametersItem
/-- examples/tests/13-ngap.rs:12798-12809 -/
def PathSwitchRequestAcknowledgeTransferIE_Extensions_EntryExtensionValue : Ty := .openType (.cons 154 false UPTransportLayerInformationPairList (.cons 185 false UPTransportLayerInformationPairList (.cons 277 false QosFlowParametersList (.cons 195 false UPTransportLayerInformation .nil))))
/-- examples/tests/13-ngap.rs:12811-12818 -/
def PathSwitchRequestAcknowledgeTransferIE_Extensions_Entry : Ty := .sequence false 0 (.required true ProtocolExtensionID (.required false Criticality (.required false PathSwitchRequestAcknowledgeTransferIE_Extensions_EntryExtensionValue .nil)))
/-- examples/tests/13-ngap.rs:12820-12829 -/
def PathSwitchRequestAcknowledgeTransferIE_Extensions : Ty := .sequenceOf (some 1) (some 65535) false PathSwitchRequestAcknowledgeTransferIE_Extensions_Entry
/-- examples/tests/13-ngap.rs:4563-4572 -/
def PathSwitchRequestAcknowledgeTransfer : Ty := .sequence true 3 (.optional 0 UPTransportLayerInformation (.optional 1 SecurityIndication (.optional 2 PathSwitchRequestAcknowledgeTransferIE_Extensions .nil)))
/-- examples/tests/13-ngap.rs:12862-12864 -/
def PathSwitchRequestSetupFailedTransferIE_Extensions_Entry : Ty := .sequence false 0 .nil
/-- examples/tests/13-ngap.rs:12866-12875 -/
def PathSwitchRequestSetupFailedTransferIE_Extensions : Ty := .sequenceOf (some 1) (some 65535) false PathSwitchRequestSetupFailedTransferIE_Extensions_Entry
/-- examples/tests/13-ngap.rs:4580-4586 -/
def PathSwitchRequestSetupFailedTransfer : Ty := .sequence true 1 (.required false Cause (.optional 0 PathSwitchRequestSetupFailedTransferIE_Extensions .nil))
/-- examples/tests/13-ngap.rs:12877-12892 -/
def PathSwitchRequestTransferIE_Extensions_EntryExtensionValue : Ty := .openType (.cons 155 false QosFlowPerTNLInformationList (.cons 184 false QosFlowPerTNLInformationList (.cons 27 false GlobalRANNodeID (.cons 191 false DL_NGU_TNLInformationReused (.cons 192 false UPTransportLayerInformation (.cons 198 false RedundantPDUSessionInformation .nil))))))
/-- examples/tests/13-ngap.rs:12894-12901 -/
def PathSwitchRequestTransferIE_Extensions_Entry : Ty := .sequence false 0 (.required true ProtocolExtensionID (.required false Criticality (.required false PathSwitchRequestTransferIE_Extensions_EntryExtensionValue .nil)))
/-- examples/tests/13-ngap.rs:12903-12912 -/
def PathSwitchRequestTransferIE_Extensions : Ty := .sequenceOf (some 1) (some 65535) false PathSwitchRequestTransferIE_Extensions_Entry
/-- examples/tests/13-ngap.rs:12981-12986 -/
def QosFlowAcceptedItemIE_Extensions_EntryExtensionValue : Ty := .openType (.cons 221 false AlternativeQoSParaSetIndex .nil)
/-- examples/tests/13-ngap.rs:12988-12995 -/
def QosFlowAcceptedItemIE_Extensions_Entry : Ty := .sequence false 0 (.required true ProtocolExtensionID (.required false Criticality (.required false QosFlowAcceptedItemIE_Extensions_EntryExtensionValue .nil)))
/-- examples/tests/13-ngap.rs:12997-13004 -/
def QosFlowAcceptedItemIE_Extensions : Ty := .sequenceOf (some 1) (some 65535) false QosFlowAcceptedItemIE_Extensions_Entry
/-- examples/tests/13-ngap.rs:4731-4737 -/
def QosFlowAcceptedItem : Ty := .sequence true 1 (.required false QosFlowIdentifier (.optional 0 QosFlowAcceptedItemIE_Extensions .nil))
/-- examples/tests/13-ngap.rs:4739-4741 -/
def QosFlowAcceptedList : Ty := .sequenceOf (some 1) (some 64) false QosFlowAcceptedItem
/-- examples/tests/13-ngap.rs:15873-15875 -/
def UserPlaneSecurityInformationIE_Extensions_Entry : Ty := .sequence false 0 .nil
/-- examples/tests/13-ngap.rs:15877-15886 -/
def UserPlaneSecurityInformationIE_Extensions : Ty := .sequenceOf (some 1) (some 65535) false UserPlaneSecurityInformationIE_Extensions_Entry
/-- examples/tests/13-ngap.rs:6680-6687 -/
def UserPlaneSecurityInformation : Ty := .sequence true 1 (.required false SecurityResult (.required false SecurityIndication (.optional 0 UserPlaneSecurityInformationIE_Extensions .nil)))
/-- examples/tests/13-ngap.rs:4588-4599 -/
def PathSwitchRequestTransfer : Ty := .sequence true 3 (.required false UPTransportLayerInformation (.optional 0 DL_NGU_TNLInformationReused (.optional 1 UserPlaneSecurityInformation (.required false QosFlowAcceptedList (.optional 2 PathSwitchRequestTransferIE_Extensions .nil)))))
/-- examples/tests/13-ngap.rs:12914-12916 -/
def PathSwitchRequestUnsuccessfulTransferIE_Extensions_Entry : Ty := .sequence false 0 .nil
/-- examples/tests/13-ngap.rs:12918-12927 -/
def PathSwitchRequestUnsuccessfulTransferIE_Extensions : Ty := .sequenceOf (some 1) (some 65535) false PathSwitchRequestUnsuccessfulTransferIE_Extensions_Entry
/-- examples/tests/13-ngap.rs:4601-4607 -/
def PathSwitchRequestUnsuccessfulTransfer : Ty := .sequence true 1 (.required false Cause (.optional 0 PathSwitchRequestUnsuccessfulTransferIE_Extensions .nil))
/-- examples/tests/13-ngap.rs:4645-4647 -/
def Presence : Ty := .enumerated .u8 (some 0) (some 2) false
/-- examples/tests/13-ngap.rs:12933-12935 -/
def OBJECT_IDENTIFIER_71 : Ty := .objectIdentifier
/-- examples/tests/13-ngap.rs:12929-12931 -/
def INTEGER_70 : Ty := .integer .u16 (some 0) (some 65535) false
/-- examples/tests/13-ngap.rs:4670-4677 -/
def PrivateIE_ID : Ty := .choice 0 1 false (.cons 0 false INTEGER_70 (.cons 1 false OBJECT_IDENTIFIER_71 .nil))
/-- examples/tests/13-ngap.rs:5063-5065 -/
def RRCContainer : Ty := .octetstring none none false
/-- examples/tests/13-ngap.rs:13824-13826 -/
def SecondaryRATDataUsageReportTransferIE_Extensions_Entry : Ty := .sequence false 0 .nil
/-- examples/tests/13-ngap.rs:13828-13837 -/
def SecondaryRATDataUsageReportTransferIE_Extensions : Ty := .sequenceOf (some 1) (some 65535) false SecondaryRATDataUsageReportTransferIE_Extensions_Entry
/-- examples/tests/13-ngap.rs:5409-5416 -/
def SecondaryRATDataUsageReportTransfer : Ty := .sequence true 2 (.optional 0 SecondaryRATUsageInformation (.optional 1 SecondaryRATDataUsageReportTransferIE_Extensions .nil))
/-- examples/tests/13-ngap.rs:5548-5550 -/
def SgNB_UE_X2AP_ID : Ty := .integer .u32 (some 0) (some 4294967295) false
/-- examples/tests/13-ngap.rs:15111-15113 -/
def UEHistoryInformationFromTheUEchoice_Extensions : Ty := .sequence false 0 .nil
/-- examples/tests/13-ngap.rs:6301-6308 -/
def UEHistoryInformationFromTheUE : Ty := .choice 0 1 false (.cons 0 false NRMobilityHistoryReport (.cons 1 false UEHistoryInformationFromTheUEchoice_Extensions .nil))
/-- examples/tests/13-ngap.rs:14026-14033 -/
def SourceNGRANNode_ToTargetNGRANNode_TransparentContainerIE_Extensions_EntryExtensionValue : Ty := .openType (.cons 182 false SgNB_UE_X2AP_ID (.cons 253 false UEHistoryInformationFromTheUE .nil))
/-- examples/tests/13-ngap.rs:14035-14043 -/
def SourceNGRANNode_ToTargetNGRANNode_TransparentContainerIE_Extensions_Entry : Ty := .sequence false 0 (.required true ProtocolExtensionID (.required false Criticality (.required false SourceNGRANNode_ToTargetNGRANNode_TransparentContainerIE_Extensions_EntryExtensionValue .nil)))
/-- examples/tests/13-ngap.rs:14045-14054 -/
def SourceNGRANNode_ToTargetNGRANNode_TransparentContainerIE_Extensions : Ty := .sequenceOf (some 1) (some 65535) false SourceNGRANNode_ToTargetNGRANNode_TransparentContainerIE_Extensions_Entry
/-- examples/tests/13-ngap.rs:6297-6299 -/
def UEHistoryInformation : Ty := .sequenceOf (some 1) (some 16) false LastVisitedCellItem
/-- examples/tests/13-ngap.rs:5586-5600 -/
def SourceNGRANNode_ToTargetNGRANNode_TransparentContainer : Ty := .sequence true 4 (.required false RRCContainer (.optional 0 PDUSessionResourceInformationList (.optional 1 E_RABInformationList (.required false NGRAN_CGI (.optional 2 IndexToRFSP (.required false UEHistoryInformation (.optional 3 SourceNGRANNode_ToTargetNGRANNode_TransparentContainerIE_Extensions .nil)))))))
/-- examples/tests/13-ngap.rs:5677-5679 -/
def SuspendIndicator : Ty := .enumerated .u8 (some 0) (some 0) true
/-- examples/tests/13-ngap.rs:14350-14352 -/
def TargetNGRANNode_ToSourceNGRANNode_FailureTransparentContainerIE_Extensions_Entry : Ty := .sequence false 0 .nil
/-- examples/tests/13-ngap.rs:14354-14363 -/
def TargetNGRANNode_ToSourceNGRANNode_FailureTransparentContainerIE_Extensions : Ty := .sequenceOf (some 1) (some 65535) false TargetNGRANNode_ToSourceNGRANNode_FailureTransparentContainerIE_Extensions_Entry
/-- examples/tests/13-ngap.rs:5919-5926 -/
def TargetNGRANNode_ToSourceNGRANNode_FailureTransparentContainer : Ty := .sequence true 1 (.required false Cell_CAGInformation (.optional 0 TargetNGRANNode_ToSourceNGRANNode_FailureTransparentContainerIE_Extensions .nil))
/-- examples/tests/13-ngap.rs:14365-14370 -/
def TargetNGRANNode_ToSourceNGRANNode_TransparentContainerIE_Extensions_EntryExtensionValue : Ty := .openType (.cons 267 false DAPSResponseInfoList .nil)
/-- examples/tests/13-ngap.rs:14372-14380 -/
def TargetNGRANNode_ToSourceNGRANNode_TransparentContainerIE_Extensions_Entry : Ty := .sequence false 0 (.required true ProtocolExtensionID (.required false Criticality (.required false TargetNGRANNode_ToSourceNGRANNode_TransparentContainerIE_Extensions_EntryExtensionValue .nil)))
/-- examples/tests/13-ngap.rs:14382-14391 -/
def TargetNGRANNode_ToSourceNGRANNode_TransparentContainerIE_Extensions : Ty := .sequenceOf (some 1) (some 65535) false TargetNGRANNode_ToSourceNGRANNode_TransparentContainerIE_Extensions_Entry
/-- examples/tests/13-ngap.rs:5928-5934 -/
def TargetNGRANNode_ToSourceNGRANNode_TransparentContainer : Ty := .sequence true 1 (.required false RRCContainer (.optional 0 TargetNGRANNode_ToSourceNGRANNode_TransparentContainerIE_Extensions .nil))
/-- examples/tests/13-ngap.rs:14932-14934 -/
def UEContextResumeRequestTransferIE_Extensions_Entry : Ty := .sequence false 0 .nil
/-- examples/tests/13-ngap.rs:14936-14945 -/
def UEContextResumeRequestTransferIE_Extensions : Ty := .sequenceOf (some 1) (some 65535) false UEContextResumeRequestTransferIE_Extensions_Entry
/-- examples/tests/13-ngap.rs:6246-6253 -/
def UEContextResumeRequestTransfer : Ty := .sequence true 2 (.optional 0 QosFlowListWithCause (.optional 1 UEContextResumeRequestTransferIE_Extensions .nil))
/-- examples/tests/13-ngap.rs:14986-14988 -/
def UEContextResumeResponseTransferIE_Extensions_Entry : Ty := .sequence false 0 .nil
/-- examples/tests/13-ngap.rs:14990-14999 -/
def UEContextResumeResponseTransferIE_Extensions : Ty := .sequenceOf (some 1) (some 65535) false UEContextResumeResponseTransferIE_Extensions_Entry
/-- examples/tests/13-ngap.rs:6261-6268 -/
def UEContextResumeResponseTransfer : Ty := .sequence true 2 (.optional 0 QosFlowListWithCause (.optional 1 UEContextResumeResponseTransferIE_Extensions .nil))
/-- examples/tests/13-ngap.rs:15065-15067 -/
def UEContextSuspendRequestTransferIE_Extensions_Entry : Ty := .sequence false 0 .nil
/-- examples/tests/13-ngap.rs:15069-15078 -/
def UEContextSuspendRequestTransferIE_Extensions : Ty := .sequenceOf (some 1) (some 65535) false UEContextSuspendRequestTransferIE_Extensions_Entry
/-- examples/tests/13-ngap.rs:6282-6289 -/
def UEContextSuspendRequestTransfer : Ty := .sequence true 2 (.optional 0 SuspendIndicator (.optional 1 UEContextSuspendRequestTransferIE_Extensions .nil))

end Hampi.Ngap
