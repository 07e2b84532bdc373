import Verif.Derive.Model
/-!
# The types of examples/tests/11-ranap.rs

Written by tools/transcribe.py from examples/tests/11-ranap.rs: one definition per item, its attributes read as
`Verif/Derive/Macro.lean` says the macro reads them, items after those they mention.
-/
namespace Hampi.Ranap

/-- examples/tests/11-ranap.rs:6-13 -/
def APN : Ty := .octetstring (some 1) (some 255) false
/-- examples/tests/11-ranap.rs:15-17 -/
def AccuracyFulfilmentIndicator : Ty := .enumerated .u8 (some 0) (some 1) true
/-- examples/tests/11-ranap.rs:4551-4553 -/
def Additional_CSPS_coordination_informationIE_Extensions_Entry : Ty := .sequence false 0 .nil
/-- examples/tests/11-ranap.rs:4555-4564 -/
def Additional_CSPS_coordination_informationIE_Extensions : Ty := .sequenceOf (some 1) (some 65535) false Additional_CSPS_coordination_informationIE_Extensions_Entry
/-- examples/tests/11-ranap.rs:4547-4549 -/
def NULL_3 : Ty := .null
/-- examples/tests/11-ranap.rs:4543-4545 -/
def BIT_STRING_2 : Ty := .bitstring (some 10) (some 10) false
/-- examples/tests/11-ranap.rs:3099-3101 -/
def RAC : Ty := .octetstring (some 1) (some 1) false
/-- examples/tests/11-ranap.rs:6814-6816 -/
def LAIIE_Extensions_Entry : Ty := .sequence false 0 .nil
/-- examples/tests/11-ranap.rs:6818-6825 -/
def LAIIE_Extensions : Ty := .sequenceOf (some 1) (some 65535) false LAIIE_Extensions_Entry
/-- examples/tests/11-ranap.rs:1366-1368 -/
def LAC : Ty := .octetstring (some 2) (some 2) false
/-- examples/tests/11-ranap.rs:3992-3994 -/
def TBCD_STRING : Ty := .octetstring none none false
/-- examples/tests/11-ranap.rs:2225-2225 -/
def PLMNidentity : Ty := TBCD_STRING
/-- examples/tests/11-ranap.rs:1370-1377 -/
def LAI : Ty := .sequence false 1 (.required false PLMNidentity (.required false LAC (.optional 0 LAIIE_Extensions .nil)))
/-- examples/tests/11-ranap.rs:23-36 -/
def Additional_CSPS_coordination_information : Ty := .sequence true 5 (.optional 0 LAI (.optional 1 RAC (.optional 2 BIT_STRING_2 (.optional 3 NULL_3 (.optional 4 Additional_CSPS_coordination_informationIE_Extensions .nil)))))
/-- examples/tests/11-ranap.rs:42-44 -/
def Additional_PositioningMethodAndUsage : Ty := .octetstring (some 1) (some 1) false
/-- examples/tests/11-ranap.rs:38-40 -/
def Additional_PositioningDataSet : Ty := .sequenceOf (some 1) (some 8) false Additional_PositioningMethodAndUsage
/-- examples/tests/11-ranap.rs:4566-4568 -/
def AllocationOrRetentionPriorityIE_Extensions_Entry : Ty := .sequence false 0 .nil
/-- examples/tests/11-ranap.rs:4570-4579 -/
def AllocationOrRetentionPriorityIE_Extensions : Ty := .sequenceOf (some 1) (some 65535) false AllocationOrRetentionPriorityIE_Extensions_Entry
/-- examples/tests/11-ranap.rs:2404-2406 -/
def QueuingAllowed : Ty := .enumerated .u8 (some 0) (some 1) false
/-- examples/tests/11-ranap.rs:2345-2347 -/
def Pre_emptionVulnerability : Ty := .enumerated .u8 (some 0) (some 1) false
/-- examples/tests/11-ranap.rs:2337-2339 -/
def Pre_emptionCapability : Ty := .enumerated .u8 (some 0) (some 1) false
/-- examples/tests/11-ranap.rs:2366-2368 -/
def PriorityLevel : Ty := .integer .u8 (some 0) (some 15) false
/-- examples/tests/11-ranap.rs:46-55 -/
def AllocationOrRetentionPriority : Ty := .sequence true 1 (.required false PriorityLevel (.required false Pre_emptionCapability (.required false Pre_emptionVulnerability (.required false QueuingAllowed (.optional 0 AllocationOrRetentionPriorityIE_Extensions .nil)))))
/-- examples/tests/11-ranap.rs:802-804 -/
def ExtendedGuaranteedBitrate : Ty := .integer .u32 (some 16000001) (some 256000000) false
/-- examples/tests/11-ranap.rs:65-67 -/
def Alt_RAB_Parameter_ExtendedGuaranteedBitrateList : Ty := .sequenceOf (some 1) (some 2) false ExtendedGuaranteedBitrate
/-- examples/tests/11-ranap.rs:69-73 -/
def Alt_RAB_Parameter_ExtendedGuaranteedBitrates : Ty := .sequenceOf (some 1) (some 16) false Alt_RAB_Parameter_ExtendedGuaranteedBitrateList
/-- examples/tests/11-ranap.rs:103-105 -/
def Alt_RAB_Parameter_GuaranteedBitrateType : Ty := .enumerated .u8 (some 0) (some 2) true
/-- examples/tests/11-ranap.rs:57-63 -/
def Alt_RAB_Parameter_ExtendedGuaranteedBitrateInf : Ty := .sequence true 1 (.required false Alt_RAB_Parameter_GuaranteedBitrateType (.optional 0 Alt_RAB_Parameter_ExtendedGuaranteedBitrates .nil))
/-- examples/tests/11-ranap.rs:806-808 -/
def ExtendedMaxBitrate : Ty := .integer .u32 (some 16000001) (some 256000000) false
/-- examples/tests/11-ranap.rs:83-85 -/
def Alt_RAB_Parameter_ExtendedMaxBitrateList : Ty := .sequenceOf (some 1) (some 2) false ExtendedMaxBitrate
/-- examples/tests/11-ranap.rs:87-89 -/
def Alt_RAB_Parameter_ExtendedMaxBitrates : Ty := .sequenceOf (some 1) (some 16) false Alt_RAB_Parameter_ExtendedMaxBitrateList
/-- examples/tests/11-ranap.rs:128-130 -/
def Alt_RAB_Parameter_MaxBitrateType : Ty := .enumerated .u8 (some 0) (some 2) true
/-- examples/tests/11-ranap.rs:75-81 -/
def Alt_RAB_Parameter_ExtendedMaxBitrateInf : Ty := .sequence true 1 (.required false Alt_RAB_Parameter_MaxBitrateType (.optional 0 Alt_RAB_Parameter_ExtendedMaxBitrates .nil))
/-- examples/tests/11-ranap.rs:1015-1017 -/
def GuaranteedBitrate : Ty := .integer .u32 (some 0) (some 16000000) false
/-- examples/tests/11-ranap.rs:99-101 -/
def Alt_RAB_Parameter_GuaranteedBitrateList : Ty := .sequenceOf (some 1) (some 2) false GuaranteedBitrate
/-- examples/tests/11-ranap.rs:112-114 -/
def Alt_RAB_Parameter_GuaranteedBitrates : Ty := .sequenceOf (some 1) (some 16) false Alt_RAB_Parameter_GuaranteedBitrateList
/-- examples/tests/11-ranap.rs:91-97 -/
def Alt_RAB_Parameter_GuaranteedBitrateInf : Ty := .sequence true 1 (.required false Alt_RAB_Parameter_GuaranteedBitrateType (.optional 0 Alt_RAB_Parameter_GuaranteedBitrates .nil))
/-- examples/tests/11-ranap.rs:2021-2023 -/
def MaxBitrate : Ty := .integer .u32 (some 1) (some 16000000) false
/-- examples/tests/11-ranap.rs:124-126 -/
def Alt_RAB_Parameter_MaxBitrateList : Ty := .sequenceOf (some 1) (some 2) false MaxBitrate
/-- examples/tests/11-ranap.rs:137-139 -/
def Alt_RAB_Parameter_MaxBitrates : Ty := .sequenceOf (some 1) (some 16) false Alt_RAB_Parameter_MaxBitrateList
/-- examples/tests/11-ranap.rs:116-122 -/
def Alt_RAB_Parameter_MaxBitrateInf : Ty := .sequence true 1 (.required false Alt_RAB_Parameter_MaxBitrateType (.optional 0 Alt_RAB_Parameter_MaxBitrates .nil))
/-- examples/tests/11-ranap.rs:4581-4583 -/
def Alt_RAB_Parameter_SupportedGuaranteedBitrateInfIE_Extensions_Entry : Ty := .sequence false 0 .nil
/-- examples/tests/11-ranap.rs:4585-4594 -/
def Alt_RAB_Parameter_SupportedGuaranteedBitrateInfIE_Extensions : Ty := .sequenceOf (some 1) (some 65535) false Alt_RAB_Parameter_SupportedGuaranteedBitrateInfIE_Extensions_Entry
/-- examples/tests/11-ranap.rs:3971-3973 -/
def SupportedBitrate : Ty := .integer .u32 (some 1) (some 1000000000) true
/-- examples/tests/11-ranap.rs:3975-3977 -/
def SupportedRAB_ParameterBitrateList : Ty := .sequenceOf (some 1) (some 2) false SupportedBitrate
/-- examples/tests/11-ranap.rs:151-155 -/
def Alt_RAB_Parameter_SupportedGuaranteedBitrates : Ty := .sequenceOf (some 1) (some 16) false SupportedRAB_ParameterBitrateList
/-- examples/tests/11-ranap.rs:141-149 -/
def Alt_RAB_Parameter_SupportedGuaranteedBitrateInf : Ty := .sequence true 2 (.required false Alt_RAB_Parameter_GuaranteedBitrateType (.optional 0 Alt_RAB_Parameter_SupportedGuaranteedBitrates (.optional 1 Alt_RAB_Parameter_SupportedGuaranteedBitrateInfIE_Extensions .nil)))
/-- examples/tests/11-ranap.rs:4596-4598 -/
def Alt_RAB_Parameter_SupportedMaxBitrateInfIE_Extensions_Entry : Ty := .sequence false 0 .nil
/-- examples/tests/11-ranap.rs:4600-4609 -/
def Alt_RAB_Parameter_SupportedMaxBitrateInfIE_Extensions : Ty := .sequenceOf (some 1) (some 65535) false Alt_RAB_Parameter_SupportedMaxBitrateInfIE_Extensions_Entry
/-- examples/tests/11-ranap.rs:167-169 -/
def Alt_RAB_Parameter_SupportedMaxBitrates : Ty := .sequenceOf (some 1) (some 16) false SupportedRAB_ParameterBitrateList
/-- examples/tests/11-ranap.rs:157-165 -/
def Alt_RAB_Parameter_SupportedMaxBitrateInf : Ty := .sequence true 2 (.required false Alt_RAB_Parameter_MaxBitrateType (.optional 0 Alt_RAB_Parameter_SupportedMaxBitrates (.optional 1 Alt_RAB_Parameter_SupportedMaxBitrateInfIE_Extensions .nil)))
/-- examples/tests/11-ranap.rs:3863-3865 -/
def SignallingIndication : Ty := .enumerated .u8 (some 0) (some 0) true
/-- examples/tests/11-ranap.rs:2649-2651 -/
def RAB_Parameter_ExtendedMaxBitrateList : Ty := .sequenceOf (some 1) (some 2) false ExtendedMaxBitrate
/-- examples/tests/11-ranap.rs:2645-2647 -/
def RAB_Parameter_ExtendedGuaranteedBitrateList : Ty := .sequenceOf (some 1) (some 2) false ExtendedGuaranteedBitrate
/-- examples/tests/11-ranap.rs:9108-9121 -/
def RAB_ParametersIE_Extensions_EntryExtensionValue : Ty := .openType (.cons 176 false RAB_Parameter_ExtendedGuaranteedBitrateList (.cons 177 false RAB_Parameter_ExtendedMaxBitrateList (.cons 218 false SupportedRAB_ParameterBitrateList (.cons 219 false SupportedRAB_ParameterBitrateList (.cons 116 false SignallingIndication .nil)))))
/-- examples/tests/11-ranap.rs:497-499 -/
def Criticality : Ty := .enumerated .u8 (some 0) (some 2) false
/-- examples/tests/11-ranap.rs:2389-2391 -/
def ProtocolExtensionID : Ty := .integer .u16 (some 0) (some 65535) false
/-- examples/tests/11-ranap.rs:9123-9130 -/
def RAB_ParametersIE_Extensions_Entry : Ty := .sequence false 0 (.required true ProtocolExtensionID (.required false Criticality (.required false RAB_ParametersIE_Extensions_EntryExtensionValue .nil)))
/-- examples/tests/11-ranap.rs:9132-9139 -/
def RAB_ParametersIE_Extensions : Ty := .sequenceOf (some 1) (some 65535) false RAB_ParametersIE_Extensions_Entry
/-- examples/tests/11-ranap.rs:3405-3407 -/
def RelocationRequirement : Ty := .enumerated .u8 (some 0) (some 1) true
/-- examples/tests/11-ranap.rs:3933-3935 -/
def SourceStatisticsDescriptor : Ty := .enumerated .u8 (some 0) (some 1) true
/-- examples/tests/11-ranap.rs:4189-4191 -/
def TrafficHandlingPriority : Ty := .integer .u8 (some 0) (some 15) false
/-- examples/tests/11-ranap.rs:4193-4195 -/
def TransferDelay : Ty := .integer .u16 (some 0) (some 65535) false
/-- examples/tests/11-ranap.rs:11388-11390 -/
def SDU_Parameters_EntryIE_Extensions_Entry : Ty := .sequence false 0 .nil
/-- examples/tests/11-ranap.rs:11392-11399 -/
def SDU_Parameters_EntryIE_Extensions : Ty := .sequenceOf (some 1) (some 65535) false SDU_Parameters_EntryIE_Extensions_Entry
/-- examples/tests/11-ranap.rs:11362-11364 -/
def SDU_FormatInformationParameters_EntryIE_Extensions_Entry : Ty := .sequence false 0 .nil
/-- examples/tests/11-ranap.rs:11366-11375 -/
def SDU_FormatInformationParameters_EntryIE_Extensions : Ty := .sequenceOf (some 1) (some 65535) false SDU_FormatInformationParameters_EntryIE_Extensions_Entry
/-- examples/tests/11-ranap.rs:3018-3020 -/
def RAB_SubflowCombinationBitRate : Ty := .integer .u32 (some 0) (some 16000000) false
/-- examples/tests/11-ranap.rs:3954-3956 -/
def SubflowSDU_Size : Ty := .integer .u16 (some 0) (some 4095) false
/-- examples/tests/11-ranap.rs:11377-11386 -/
def SDU_FormatInformationParameters_Entry : Ty := .sequence true 3 (.optional 0 SubflowSDU_Size (.optional 1 RAB_SubflowCombinationBitRate (.optional 2 SDU_FormatInformationParameters_EntryIE_Extensions .nil)))
/-- examples/tests/11-ranap.rs:3683-3685 -/
def SDU_FormatInformationParameters : Ty := .sequenceOf (some 1) (some 64) false SDU_FormatInformationParameters_Entry
/-- examples/tests/11-ranap.rs:598-600 -/
def DeliveryOfErroneousSDU : Ty := .enumerated .u8 (some 0) (some 2) false
/-- examples/tests/11-ranap.rs:11315-11317 -/
def ResidualBitErrorRatioIE_Extensions_Entry : Ty := .sequence false 0 .nil
/-- examples/tests/11-ranap.rs:11319-11326 -/
def ResidualBitErrorRatioIE_Extensions : Ty := .sequenceOf (some 1) (some 65535) false ResidualBitErrorRatioIE_Extensions_Entry
/-- examples/tests/11-ranap.rs:11311-11313 -/
def INTEGER_58 : Ty := .integer .u8 (some 1) (some 8) false
/-- examples/tests/11-ranap.rs:11307-11309 -/
def INTEGER_57 : Ty := .integer .u8 (some 1) (some 9) false
/-- examples/tests/11-ranap.rs:3635-3642 -/
def ResidualBitErrorRatio : Ty := .sequence false 1 (.required false INTEGER_57 (.required false INTEGER_58 (.optional 0 ResidualBitErrorRatioIE_Extensions .nil)))
/-- examples/tests/11-ranap.rs:11349-11351 -/
def SDU_ErrorRatioIE_Extensions_Entry : Ty := .sequence false 0 .nil
/-- examples/tests/11-ranap.rs:11353-11360 -/
def SDU_ErrorRatioIE_Extensions : Ty := .sequenceOf (some 1) (some 65535) false SDU_ErrorRatioIE_Extensions_Entry
/-- examples/tests/11-ranap.rs:11345-11347 -/
def INTEGER_60 : Ty := .integer .u8 (some 1) (some 6) false
/-- examples/tests/11-ranap.rs:11341-11343 -/
def INTEGER_59 : Ty := .integer .u8 (some 1) (some 9) false
/-- examples/tests/11-ranap.rs:3674-3681 -/
def SDU_ErrorRatio : Ty := .sequence false 1 (.required false INTEGER_59 (.required false INTEGER_60 (.optional 0 SDU_ErrorRatioIE_Extensions .nil)))
/-- examples/tests/11-ranap.rs:11401-11412 -/
def SDU_Parameters_Entry : Ty := .sequence true 3 (.optional 0 SDU_ErrorRatio (.required false ResidualBitErrorRatio (.required false DeliveryOfErroneousSDU (.optional 1 SDU_FormatInformationParameters (.optional 2 SDU_Parameters_EntryIE_Extensions .nil)))))
/-- examples/tests/11-ranap.rs:3687-3689 -/
def SDU_Parameters : Ty := .sequenceOf (some 1) (some 7) false SDU_Parameters_Entry
/-- examples/tests/11-ranap.rs:2025-2027 -/
def MaxSDU_Size : Ty := .integer .u16 (some 0) (some 32768) false
/-- examples/tests/11-ranap.rs:607-609 -/
def DeliveryOrder : Ty := .enumerated .u8 (some 0) (some 1) false
/-- examples/tests/11-ranap.rs:2653-2655 -/
def RAB_Parameter_GuaranteedBitrateList : Ty := .sequenceOf (some 1) (some 2) false GuaranteedBitrate
/-- examples/tests/11-ranap.rs:2657-2659 -/
def RAB_Parameter_MaxBitrateList : Ty := .sequenceOf (some 1) (some 2) false MaxBitrate
/-- examples/tests/11-ranap.rs:2428-2430 -/
def RAB_AsymmetryIndicator : Ty := .enumerated .u8 (some 0) (some 3) true
/-- examples/tests/11-ranap.rs:4179-4181 -/
def TrafficClass : Ty := .enumerated .u8 (some 0) (some 3) true
/-- examples/tests/11-ranap.rs:2661-2684 -/
def RAB_Parameters : Ty := .sequence true 7 (.required false TrafficClass (.required false RAB_AsymmetryIndicator (.required false RAB_Parameter_MaxBitrateList (.optional 0 RAB_Parameter_GuaranteedBitrateList (.required false DeliveryOrder (.required false MaxSDU_Size (.required false SDU_Parameters (.optional 1 TransferDelay (.optional 2 TrafficHandlingPriority (.optional 3 AllocationOrRetentionPriority (.optional 4 SourceStatisticsDescriptor (.optional 5 RelocationRequirement (.optional 6 RAB_ParametersIE_Extensions .nil)))))))))))))
/-- examples/tests/11-ranap.rs:4611-4628 -/
def Alt_RAB_ParametersIE_Extensions_EntryExtensionValue : Ty := .openType (.cons 172 false Alt_RAB_Parameter_ExtendedGuaranteedBitrateInf (.cons 173 false Alt_RAB_Parameter_ExtendedMaxBitrateInf (.cons 214 false Alt_RAB_Parameter_SupportedGuaranteedBitrateInf (.cons 215 false Alt_RAB_Parameter_SupportedMaxBitrateInf (.cons 158 false RAB_Parameters .nil)))))
/-- examples/tests/11-ranap.rs:4630-4637 -/
def Alt_RAB_ParametersIE_Extensions_Entry : Ty := .sequence false 0 (.required true ProtocolExtensionID (.required false Criticality (.required false Alt_RAB_ParametersIE_Extensions_EntryExtensionValue .nil)))
/-- examples/tests/11-ranap.rs:4639-4646 -/
def Alt_RAB_ParametersIE_Extensions : Ty := .sequenceOf (some 1) (some 65535) false Alt_RAB_ParametersIE_Extensions_Entry
/-- examples/tests/11-ranap.rs:171-180 -/
def Alt_RAB_Parameters : Ty := .sequence true 3 (.optional 0 Alt_RAB_Parameter_MaxBitrateInf (.optional 1 Alt_RAB_Parameter_GuaranteedBitrateInf (.optional 2 Alt_RAB_ParametersIE_Extensions .nil)))
/-- examples/tests/11-ranap.rs:182-184 -/
def AlternativeRABConfigurationRequest : Ty := .enumerated .u8 (some 0) (some 0) true
/-- examples/tests/11-ranap.rs:5778-5780 -/
def GA_EllipsoidArcIE_Extensions_Entry : Ty := .sequence false 0 .nil
/-- examples/tests/11-ranap.rs:5782-5789 -/
def GA_EllipsoidArcIE_Extensions : Ty := .sequenceOf (some 1) (some 65535) false GA_EllipsoidArcIE_Extensions_Entry
/-- examples/tests/11-ranap.rs:5774-5776 -/
def INTEGER_20 : Ty := .integer .u8 (some 0) (some 127) false
/-- examples/tests/11-ranap.rs:5770-5772 -/
def INTEGER_19 : Ty := .integer .u8 (some 0) (some 179) false
/-- examples/tests/11-ranap.rs:5766-5768 -/
def INTEGER_18 : Ty := .integer .u8 (some 0) (some 179) false
/-- examples/tests/11-ranap.rs:5762-5764 -/
def INTEGER_17 : Ty := .integer .u8 (some 0) (some 127) false
/-- examples/tests/11-ranap.rs:5758-5760 -/
def INTEGER_16 : Ty := .integer .u16 (some 0) (some 65535) false
/-- examples/tests/11-ranap.rs:5984-5986 -/
def GeographicalCoordinatesIE_Extensions_Entry : Ty := .sequence false 0 .nil
/-- examples/tests/11-ranap.rs:5988-5997 -/
def GeographicalCoordinatesIE_Extensions : Ty := .sequenceOf (some 1) (some 65535) false GeographicalCoordinatesIE_Extensions_Entry
/-- examples/tests/11-ranap.rs:5980-5982 -/
def INTEGER_30 : Ty := .integer .i32 (some (-8388608)) (some 8388607) false
/-- examples/tests/11-ranap.rs:5976-5978 -/
def INTEGER_29 : Ty := .integer .u32 (some 0) (some 8388607) false
/-- examples/tests/11-ranap.rs:5968-5970 -/
def ENUMERATED_28 : Ty := .enumerated .u8 (some 0) (some 1) false
/-- examples/tests/11-ranap.rs:991-999 -/
def GeographicalCoordinates : Ty := .sequence true 1 (.required false ENUMERATED_28 (.required false INTEGER_29 (.required false INTEGER_30 (.optional 0 GeographicalCoordinatesIE_Extensions .nil))))
/-- examples/tests/11-ranap.rs:847-858 -/
def GA_EllipsoidArc : Ty := .sequence true 1 (.required false GeographicalCoordinates (.required false INTEGER_16 (.required false INTEGER_17 (.required false INTEGER_18 (.required false INTEGER_19 (.required false INTEGER_20 (.optional 0 GA_EllipsoidArcIE_Extensions .nil)))))))
/-- examples/tests/11-ranap.rs:5825-5827 -/
def GA_PointWithAltitudeAndUncertaintyEllipsoidIE_Extensions_Entry : Ty := .sequence false 0 .nil
/-- examples/tests/11-ranap.rs:5829-5838 -/
def GA_PointWithAltitudeAndUncertaintyEllipsoidIE_Extensions : Ty := .sequenceOf (some 1) (some 65535) false GA_PointWithAltitudeAndUncertaintyEllipsoidIE_Extensions_Entry
/-- examples/tests/11-ranap.rs:5821-5823 -/
def INTEGER_22 : Ty := .integer .u8 (some 0) (some 127) false
/-- examples/tests/11-ranap.rs:5817-5819 -/
def INTEGER_21 : Ty := .integer .u8 (some 0) (some 127) false
/-- examples/tests/11-ranap.rs:5907-5909 -/
def INTEGER_27 : Ty := .integer .u8 (some 0) (some 179) false
/-- examples/tests/11-ranap.rs:5903-5905 -/
def INTEGER_26 : Ty := .integer .u8 (some 0) (some 127) false
/-- examples/tests/11-ranap.rs:5899-5901 -/
def INTEGER_25 : Ty := .integer .u8 (some 0) (some 127) false
/-- examples/tests/11-ranap.rs:912-918 -/
def GA_UncertaintyEllipse : Ty := .sequence true 0 (.required false INTEGER_25 (.required false INTEGER_26 (.required false INTEGER_27 .nil)))
/-- examples/tests/11-ranap.rs:5754-5756 -/
def INTEGER_15 : Ty := .integer .u16 (some 0) (some 32767) false
/-- examples/tests/11-ranap.rs:5746-5748 -/
def ENUMERATED_14 : Ty := .enumerated .u8 (some 0) (some 1) false
/-- examples/tests/11-ranap.rs:840-845 -/
def GA_AltitudeAndDirection : Ty := .sequence true 0 (.required false ENUMERATED_14 (.required false INTEGER_15 .nil))
/-- examples/tests/11-ranap.rs:877-887 -/
def GA_PointWithAltitudeAndUncertaintyEllipsoid : Ty := .sequence true 1 (.required false GeographicalCoordinates (.required false GA_AltitudeAndDirection (.required false GA_UncertaintyEllipse (.required false INTEGER_21 (.required false INTEGER_22 (.optional 0 GA_PointWithAltitudeAndUncertaintyEllipsoidIE_Extensions .nil))))))
/-- examples/tests/11-ranap.rs:5804-5806 -/
def GA_PointWithAltitudeIE_Extensions_Entry : Ty := .sequence false 0 .nil
/-- examples/tests/11-ranap.rs:5808-5815 -/
def GA_PointWithAltitudeIE_Extensions : Ty := .sequenceOf (some 1) (some 65535) false GA_PointWithAltitudeIE_Extensions_Entry
/-- examples/tests/11-ranap.rs:868-875 -/
def GA_PointWithAltitude : Ty := .sequence true 1 (.required false GeographicalCoordinates (.required false GA_AltitudeAndDirection (.optional 0 GA_PointWithAltitudeIE_Extensions .nil)))
/-- examples/tests/11-ranap.rs:5863-5865 -/
def GA_PointWithUnCertaintyEllipseIE_Extensions_Entry : Ty := .sequence false 0 .nil
/-- examples/tests/11-ranap.rs:5867-5876 -/
def GA_PointWithUnCertaintyEllipseIE_Extensions : Ty := .sequenceOf (some 1) (some 65535) false GA_PointWithUnCertaintyEllipseIE_Extensions_Entry
/-- examples/tests/11-ranap.rs:5859-5861 -/
def INTEGER_24 : Ty := .integer .u8 (some 0) (some 127) false
/-- examples/tests/11-ranap.rs:898-906 -/
def GA_PointWithUnCertaintyEllipse : Ty := .sequence true 1 (.required false GeographicalCoordinates (.required false GA_UncertaintyEllipse (.required false INTEGER_24 (.optional 0 GA_PointWithUnCertaintyEllipseIE_Extensions .nil))))
/-- examples/tests/11-ranap.rs:5878-5880 -/
def GA_Polygon_EntryIE_Extensions_Entry : Ty := .sequence false 0 .nil
/-- examples/tests/11-ranap.rs:5882-5889 -/
def GA_Polygon_EntryIE_Extensions : Ty := .sequenceOf (some 1) (some 65535) false GA_Polygon_EntryIE_Extensions_Entry
/-- examples/tests/11-ranap.rs:5891-5897 -/
def GA_Polygon_Entry : Ty := .sequence true 1 (.required false GeographicalCoordinates (.optional 0 GA_Polygon_EntryIE_Extensions .nil))
/-- examples/tests/11-ranap.rs:908-910 -/
def GA_Polygon : Ty := .sequenceOf (some 1) (some 15) false GA_Polygon_Entry
/-- examples/tests/11-ranap.rs:5855-5857 -/
def INTEGER_23 : Ty := .integer .u8 (some 0) (some 127) false
/-- examples/tests/11-ranap.rs:5840-5842 -/
def GA_PointWithUnCertaintyIE_Extensions_Entry : Ty := .sequence false 0 .nil
/-- examples/tests/11-ranap.rs:5844-5853 -/
def GA_PointWithUnCertaintyIE_Extensions : Ty := .sequenceOf (some 1) (some 65535) false GA_PointWithUnCertaintyIE_Extensions_Entry
/-- examples/tests/11-ranap.rs:889-896 -/
def GA_PointWithUnCertainty : Ty := .sequence false 1 (.required false GeographicalCoordinates (.optional 0 GA_PointWithUnCertaintyIE_Extensions (.required false INTEGER_23 .nil)))
/-- examples/tests/11-ranap.rs:5791-5793 -/
def GA_PointIE_Extensions_Entry : Ty := .sequence false 0 .nil
/-- examples/tests/11-ranap.rs:5795-5802 -/
def GA_PointIE_Extensions : Ty := .sequenceOf (some 1) (some 65535) false GA_PointIE_Extensions_Entry
/-- examples/tests/11-ranap.rs:860-866 -/
def GA_Point : Ty := .sequence true 1 (.required false GeographicalCoordinates (.optional 0 GA_PointIE_Extensions .nil))
/-- examples/tests/11-ranap.rs:972-989 -/
def GeographicalArea : Ty := .choice 0 2 true (.cons 0 false GA_Point (.cons 1 false GA_PointWithUnCertainty (.cons 2 false GA_Polygon (.cons 0 true GA_PointWithUnCertaintyEllipse (.cons 1 true GA_PointWithAltitude (.cons 2 true GA_PointWithAltitudeAndUncertaintyEllipsoid (.cons 3 true GA_EllipsoidArc .nil)))))))
/-- examples/tests/11-ranap.rs:11328-11330 -/
def SAIIE_Extensions_Entry : Ty := .sequence false 0 .nil
/-- examples/tests/11-ranap.rs:11332-11339 -/
def SAIIE_Extensions : Ty := .sequenceOf (some 1) (some 65535) false SAIIE_Extensions_Entry
/-- examples/tests/11-ranap.rs:3652-3654 -/
def SAC : Ty := .octetstring (some 2) (some 2) false
/-- examples/tests/11-ranap.rs:3656-3664 -/
def SAI : Ty := .sequence false 1 (.required false PLMNidentity (.required false LAC (.required false SAC (.optional 0 SAIIE_Extensions .nil))))
/-- examples/tests/11-ranap.rs:189-196 -/
def AreaIdentity : Ty := .choice 0 1 true (.cons 0 false SAI (.cons 1 false GeographicalArea .nil))
/-- examples/tests/11-ranap.rs:8356-8358 -/
def PLMNBasedIE_Extensions_Entry : Ty := .sequence false 0 .nil
/-- examples/tests/11-ranap.rs:8360-8367 -/
def PLMNBasedIE_Extensions : Ty := .sequenceOf (some 1) (some 65535) false PLMNBasedIE_Extensions_Entry
/-- examples/tests/11-ranap.rs:2221-2223 -/
def PLMNList : Ty := .sequenceOf (some 1) (some 16) false PLMNidentity
/-- examples/tests/11-ranap.rs:2213-2219 -/
def PLMNBased : Ty := .sequence true 1 (.required false PLMNList (.optional 0 PLMNBasedIE_Extensions .nil))
/-- examples/tests/11-ranap.rs:9949-9951 -/
def RABasedIE_Extensions_Entry : Ty := .sequence false 0 .nil
/-- examples/tests/11-ranap.rs:9953-9960 -/
def RABasedIE_Extensions : Ty := .sequenceOf (some 1) (some 65535) false RABasedIE_Extensions_Entry
/-- examples/tests/11-ranap.rs:9992-9994 -/
def RAIIE_Extensions_Entry : Ty := .sequence false 0 .nil
/-- examples/tests/11-ranap.rs:9996-10003 -/
def RAIIE_Extensions : Ty := .sequenceOf (some 1) (some 65535) false RAIIE_Extensions_Entry
/-- examples/tests/11-ranap.rs:3103-3110 -/
def RAI : Ty := .sequence true 1 (.required false LAI (.required false RAC (.optional 0 RAIIE_Extensions .nil)))
/-- examples/tests/11-ranap.rs:3112-3114 -/
def RAI_List : Ty := .sequenceOf (some 1) (some 8) false RAI
/-- examples/tests/11-ranap.rs:3073-3079 -/
def RABased : Ty := .sequence true 1 (.required false RAI_List (.optional 0 RABasedIE_Extensions .nil))
/-- examples/tests/11-ranap.rs:6801-6803 -/
def LABasedIE_Extensions_Entry : Ty := .sequence false 0 .nil
/-- examples/tests/11-ranap.rs:6805-6812 -/
def LABasedIE_Extensions : Ty := .sequenceOf (some 1) (some 65535) false LABasedIE_Extensions_Entry
/-- examples/tests/11-ranap.rs:1379-1381 -/
def LAI_List : Ty := .sequenceOf (some 1) (some 8) false LAI
/-- examples/tests/11-ranap.rs:1358-1364 -/
def LABased : Ty := .sequence true 1 (.required false LAI_List (.optional 0 LABasedIE_Extensions .nil))
/-- examples/tests/11-ranap.rs:4864-4866 -/
def CellBasedIE_Extensions_Entry : Ty := .sequence false 0 .nil
/-- examples/tests/11-ranap.rs:4868-4875 -/
def CellBasedIE_Extensions : Ty := .sequenceOf (some 1) (some 65535) false CellBasedIE_Extensions_Entry
/-- examples/tests/11-ranap.rs:404-406 -/
def Cell_Id : Ty := .integer .u32 (some 0) (some 268435455) false
/-- examples/tests/11-ranap.rs:416-418 -/
def CellIdList : Ty := .sequenceOf (some 1) (some 32) false Cell_Id
/-- examples/tests/11-ranap.rs:408-414 -/
def CellBased : Ty := .sequence true 1 (.required false CellIdList (.optional 0 CellBasedIE_Extensions .nil))
/-- examples/tests/11-ranap.rs:198-209 -/
def AreaScopeForUEApplicationLayerMeasurementConfiguration : Ty := .choice 0 3 true (.cons 0 false CellBased (.cons 1 false LABased (.cons 2 false RABased (.cons 3 false PLMNBased .nil))))
/-- examples/tests/11-ranap.rs:211-213 -/
def Ass_RAB_Parameter_ExtendedGuaranteedBitrateList : Ty := .sequenceOf (some 1) (some 2) false ExtendedGuaranteedBitrate
/-- examples/tests/11-ranap.rs:215-217 -/
def Ass_RAB_Parameter_ExtendedMaxBitrateList : Ty := .sequenceOf (some 1) (some 2) false ExtendedMaxBitrate
/-- examples/tests/11-ranap.rs:219-221 -/
def Ass_RAB_Parameter_GuaranteedBitrateList : Ty := .sequenceOf (some 1) (some 2) false GuaranteedBitrate
/-- examples/tests/11-ranap.rs:223-225 -/
def Ass_RAB_Parameter_MaxBitrateList : Ty := .sequenceOf (some 1) (some 2) false MaxBitrate
/-- examples/tests/11-ranap.rs:4648-4661 -/
def Ass_RAB_ParametersIE_Extensions_EntryExtensionValue : Ty := .openType (.cons 174 false Ass_RAB_Parameter_ExtendedGuaranteedBitrateList (.cons 175 false Ass_RAB_Parameter_ExtendedMaxBitrateList (.cons 216 false SupportedRAB_ParameterBitrateList (.cons 217 false SupportedRAB_ParameterBitrateList .nil))))
/-- examples/tests/11-ranap.rs:4663-4670 -/
def Ass_RAB_ParametersIE_Extensions_Entry : Ty := .sequence false 0 (.required true ProtocolExtensionID (.required false Criticality (.required false Ass_RAB_ParametersIE_Extensions_EntryExtensionValue .nil)))
/-- examples/tests/11-ranap.rs:4672-4679 -/
def Ass_RAB_ParametersIE_Extensions : Ty := .sequenceOf (some 1) (some 65535) false Ass_RAB_ParametersIE_Extensions_Entry
/-- examples/tests/11-ranap.rs:227-236 -/
def Ass_RAB_Parameters : Ty := .sequence true 3 (.optional 0 Ass_RAB_Parameter_MaxBitrateList (.optional 1 Ass_RAB_Parameter_GuaranteedBitrateList (.optional 2 Ass_RAB_ParametersIE_Extensions .nil)))
/-- examples/tests/11-ranap.rs:4681-4683 -/
def AuthorisedPLMNs_EntryIE_Extensions_Entry : Ty := .sequence false 0 .nil
/-- examples/tests/11-ranap.rs:4685-4692 -/
def AuthorisedPLMNs_EntryIE_Extensions : Ty := .sequenceOf (some 1) (some 65535) false AuthorisedPLMNs_EntryIE_Extensions_Entry
/-- examples/tests/11-ranap.rs:3712-3714 -/
def SNAC : Ty := .integer .u16 (some 0) (some 65535) false
/-- examples/tests/11-ranap.rs:242-249 -/
def AuthorisedSNAs : Ty := .sequenceOf (some 1) (some 65536) false SNAC
/-- examples/tests/11-ranap.rs:4694-4702 -/
def AuthorisedPLMNs_Entry : Ty := .sequence true 2 (.required false PLMNidentity (.optional 0 AuthorisedSNAs (.optional 1 AuthorisedPLMNs_EntryIE_Extensions .nil)))
/-- examples/tests/11-ranap.rs:238-240 -/
def AuthorisedPLMNs : Ty := .sequenceOf (some 1) (some 32) false AuthorisedPLMNs_Entry
/-- examples/tests/11-ranap.rs:251-253 -/
def BarometricPressure : Ty := .integer .u32 (some 30000) (some 115000) false
/-- examples/tests/11-ranap.rs:255-257 -/
def BindingID : Ty := .octetstring (some 4) (some 4) false
/-- examples/tests/11-ranap.rs:4712-4714 -/
def BIT_STRING_6 : Ty := .bitstring (some 56) (some 56) false
/-- examples/tests/11-ranap.rs:4708-4710 -/
def BIT_STRING_5 : Ty := .bitstring (some 56) (some 56) false
/-- examples/tests/11-ranap.rs:4704-4706 -/
def BIT_STRING_4 : Ty := .bitstring (some 1) (some 1) false
/-- examples/tests/11-ranap.rs:259-265 -/
def BroadcastAssistanceDataDecipheringKeys : Ty := .sequence true 0 (.required false BIT_STRING_4 (.required false BIT_STRING_5 (.required false BIT_STRING_6 .nil)))
/-- examples/tests/11-ranap.rs:4716-4721 -/
def CGIIE_Extensions_EntryExtensionValue : Ty := .openType (.cons 55 false RAC .nil)
/-- examples/tests/11-ranap.rs:4723-4730 -/
def CGIIE_Extensions_Entry : Ty := .sequence false 0 (.required true ProtocolExtensionID (.required false Criticality (.required false CGIIE_Extensions_EntryExtensionValue .nil)))
/-- examples/tests/11-ranap.rs:4732-4739 -/
def CGIIE_Extensions : Ty := .sequenceOf (some 1) (some 65535) false CGIIE_Extensions_Entry
/-- examples/tests/11-ranap.rs:277-279 -/
def CI : Ty := .octetstring (some 2) (some 2) false
/-- examples/tests/11-ranap.rs:267-275 -/
def CGI : Ty := .sequence false 1 (.required false PLMNidentity (.required false LAC (.required false CI (.optional 0 CGIIE_Extensions .nil))))
/-- examples/tests/11-ranap.rs:4768-4770 -/
def CN_DeactivateTraceProtocolExtensions_Entry : Ty := .sequence false 0 .nil
/-- examples/tests/11-ranap.rs:4772-4781 -/
def CN_DeactivateTraceProtocolExtensions : Ty := .sequenceOf (some 1) (some 65535) false CN_DeactivateTraceProtocolExtensions_Entry
/-- examples/tests/11-ranap.rs:4210-4217 -/
def TriggerID : Ty := .octetstring (some 3) (some 22) false
/-- examples/tests/11-ranap.rs:4171-4173 -/
def TraceReference : Ty := .octetstring (some 2) (some 3) false
/-- examples/tests/11-ranap.rs:4741-4748 -/
def CN_DeactivateTraceProtocolIEs_EntryValue : Ty := .openType (.cons 65 false TraceReference (.cons 68 false TriggerID .nil))
/-- examples/tests/11-ranap.rs:2393-2395 -/
def ProtocolIE_ID : Ty := .integer .u16 (some 0) (some 65535) false
/-- examples/tests/11-ranap.rs:4750-4757 -/
def CN_DeactivateTraceProtocolIEs_Entry : Ty := .sequence false 0 (.required true ProtocolIE_ID (.required false Criticality (.required false CN_DeactivateTraceProtocolIEs_EntryValue .nil)))
/-- examples/tests/11-ranap.rs:4759-4766 -/
def CN_DeactivateTraceProtocolIEs : Ty := .sequenceOf (some 0) (some 65535) false CN_DeactivateTraceProtocolIEs_Entry
/-- examples/tests/11-ranap.rs:281-287 -/
def CN_DeactivateTrace : Ty := .sequence true 1 (.required false CN_DeactivateTraceProtocolIEs (.optional 0 CN_DeactivateTraceProtocolExtensions .nil))
/-- examples/tests/11-ranap.rs:289-291 -/
def CN_DomainIndicator : Ty := .enumerated .u8 (some 0) (some 1) false
/-- examples/tests/11-ranap.rs:297-299 -/
def CN_ID : Ty := .integer .u16 (some 0) (some 4095) false
/-- examples/tests/11-ranap.rs:3836-3838 -/
def ServiceType : Ty := .enumerated .u8 (some 0) (some 1) true
/-- examples/tests/11-ranap.rs:12182-12189 -/
def OCTET_STRING_63 : Ty := .octetstring (some 1) (some 1000) false
/-- examples/tests/11-ranap.rs:4268-4275 -/
def UE_Application_Layer_Measurement_Configuration : Ty := .sequence true 0 (.required false OCTET_STRING_63 (.required false AreaScopeForUEApplicationLayerMeasurementConfiguration (.required false ServiceType .nil)))
/-- examples/tests/11-ranap.rs:12124-12126 -/
def TracePropagationParametersIE_Extensions_Entry : Ty := .sequence false 0 .nil
/-- examples/tests/11-ranap.rs:12128-12137 -/
def TracePropagationParametersIE_Extensions : Ty := .sequenceOf (some 1) (some 65535) false TracePropagationParametersIE_Extensions_Entry
/-- examples/tests/11-ranap.rs:6606-6608 -/
def InterfacesToTraceItemIE_Extensions_Entry : Ty := .sequence false 0 .nil
/-- examples/tests/11-ranap.rs:6610-6617 -/
def InterfacesToTraceItemIE_Extensions : Ty := .sequenceOf (some 1) (some 65535) false InterfacesToTraceItemIE_Extensions_Entry
/-- examples/tests/11-ranap.rs:6595-6597 -/
def ENUMERATED_41 : Ty := .enumerated .u8 (some 0) (some 4) true
/-- examples/tests/11-ranap.rs:1283-1289 -/
def InterfacesToTraceItem : Ty := .sequence true 1 (.required false ENUMERATED_41 (.optional 0 InterfacesToTraceItemIE_Extensions .nil))
/-- examples/tests/11-ranap.rs:1447-1449 -/
def ListOfInterfacesToTrace : Ty := .sequenceOf (some 1) (some 16) false InterfacesToTraceItem
/-- examples/tests/11-ranap.rs:4127-4129 -/
def TraceDepth : Ty := .enumerated .u8 (some 0) (some 2) true
/-- examples/tests/11-ranap.rs:4167-4169 -/
def TraceRecordingSessionReference : Ty := .integer .u16 (some 0) (some 65535) false
/-- examples/tests/11-ranap.rs:4147-4156 -/
def TracePropagationParameters : Ty := .sequence true 2 (.required false TraceRecordingSessionReference (.required false TraceDepth (.optional 0 ListOfInterfacesToTrace (.optional 1 TracePropagationParametersIE_Extensions .nil))))
/-- examples/tests/11-ranap.rs:4197-4199 -/
def TransportLayerAddress : Ty := .bitstring (some 1) (some 160) true
/-- examples/tests/11-ranap.rs:1977-1979 -/
def MDT_PLMN_List : Ty := .sequenceOf (some 1) (some 16) false PLMNidentity
/-- examples/tests/11-ranap.rs:8191-8196 -/
def MDT_ConfigurationIE_Extensions_EntryExtensionValue : Ty := .openType (.cons 264 false MDT_PLMN_List .nil)
/-- examples/tests/11-ranap.rs:8198-8205 -/
def MDT_ConfigurationIE_Extensions_Entry : Ty := .sequence false 0 (.required true ProtocolExtensionID (.required false Criticality (.required false MDT_ConfigurationIE_Extensions_EntryExtensionValue .nil)))
/-- examples/tests/11-ranap.rs:8207-8214 -/
def MDT_ConfigurationIE_Extensions : Ty := .sequenceOf (some 1) (some 65535) false MDT_ConfigurationIE_Extensions_Entry
/-- examples/tests/11-ranap.rs:7207-7209 -/
def LoggedMDTIE_Extensions_Entry : Ty := .sequence false 0 .nil
/-- examples/tests/11-ranap.rs:7211-7218 -/
def LoggedMDTIE_Extensions : Ty := .sequenceOf (some 1) (some 65535) false LoggedMDTIE_Extensions_Entry
/-- examples/tests/11-ranap.rs:1550-1552 -/
def LoggingDuration : Ty := .enumerated .u8 (some 0) (some 5) true
/-- examples/tests/11-ranap.rs:1562-1564 -/
def LoggingInterval : Ty := .enumerated .u8 (some 0) (some 7) true
/-- examples/tests/11-ranap.rs:1541-1548 -/
def LoggedMDT : Ty := .sequence true 1 (.required false LoggingInterval (.required false LoggingDuration (.optional 0 LoggedMDTIE_Extensions .nil)))
/-- examples/tests/11-ranap.rs:7256-7258 -/
def M7ReportIE_Extensions_Entry : Ty := .sequence false 0 .nil
/-- examples/tests/11-ranap.rs:7260-7267 -/
def M7ReportIE_Extensions : Ty := .sequenceOf (some 1) (some 65535) false M7ReportIE_Extensions_Entry
/-- examples/tests/11-ranap.rs:1429-1431 -/
def Links_to_log : Ty := .enumerated .u8 (some 0) (some 2) true
/-- examples/tests/11-ranap.rs:1682-1684 -/
def M7_Period : Ty := .enumerated .u8 (some 0) (some 12) true
/-- examples/tests/11-ranap.rs:1701-1708 -/
def M7Report : Ty := .sequence true 1 (.required false M7_Period (.required false Links_to_log (.optional 0 M7ReportIE_Extensions .nil)))
/-- examples/tests/11-ranap.rs:7243-7245 -/
def M6ReportIE_Extensions_Entry : Ty := .sequence false 0 .nil
/-- examples/tests/11-ranap.rs:7247-7254 -/
def M6ReportIE_Extensions : Ty := .sequenceOf (some 1) (some 65535) false M6ReportIE_Extensions_Entry
/-- examples/tests/11-ranap.rs:1654-1656 -/
def M6_Period : Ty := .enumerated .u8 (some 0) (some 12) true
/-- examples/tests/11-ranap.rs:1673-1680 -/
def M6Report : Ty := .sequence true 1 (.required false M6_Period (.required false Links_to_log (.optional 0 M6ReportIE_Extensions .nil)))
/-- examples/tests/11-ranap.rs:1631-1633 -/
def M5_Period : Ty := .enumerated .u8 (some 0) (some 7) true
/-- examples/tests/11-ranap.rs:7239-7241 -/
def NULL_44 : Ty := .null
/-- examples/tests/11-ranap.rs:1645-1652 -/
def M5Report : Ty := .choice 0 1 true (.cons 0 false NULL_44 (.cons 1 false M5_Period .nil))
/-- examples/tests/11-ranap.rs:7220-7222 -/
def M4_Collection_ParametersIE_Extensions_Entry : Ty := .sequence false 0 .nil
/-- examples/tests/11-ranap.rs:7224-7233 -/
def M4_Collection_ParametersIE_Extensions : Ty := .sequenceOf (some 1) (some 65535) false M4_Collection_ParametersIE_Extensions_Entry
/-- examples/tests/11-ranap.rs:1618-1620 -/
def M4_Threshold : Ty := .integer .u8 (some 0) (some 31) false
/-- examples/tests/11-ranap.rs:1604-1606 -/
def M4_Period : Ty := .enumerated .u8 (some 0) (some 7) true
/-- examples/tests/11-ranap.rs:1594-1602 -/
def M4_Collection_Parameters : Ty := .sequence true 2 (.required false M4_Period (.optional 0 M4_Threshold (.optional 1 M4_Collection_ParametersIE_Extensions .nil)))
/-- examples/tests/11-ranap.rs:7235-7237 -/
def NULL_43 : Ty := .null
/-- examples/tests/11-ranap.rs:1622-1629 -/
def M4Report : Ty := .choice 0 1 true (.cons 0 false NULL_43 (.cons 1 false M4_Collection_Parameters .nil))
/-- examples/tests/11-ranap.rs:6167-6178 -/
def ImmediateMDTIE_Extensions_EntryExtensionValue : Ty := .openType (.cons 265 false M4Report (.cons 266 false M5Report (.cons 267 false M6Report (.cons 268 false M7Report .nil))))
/-- examples/tests/11-ranap.rs:6180-6187 -/
def ImmediateMDTIE_Extensions_Entry : Ty := .sequence false 0 (.required true ProtocolExtensionID (.required false Criticality (.required false ImmediateMDTIE_Extensions_EntryExtensionValue .nil)))
/-- examples/tests/11-ranap.rs:6189-6196 -/
def ImmediateMDTIE_Extensions : Ty := .sequenceOf (some 1) (some 65535) false ImmediateMDTIE_Extensions_Entry
/-- examples/tests/11-ranap.rs:5690-5692 -/
def INTEGER_13 : Ty := .integer .i8 (some (-120)) (some (-25)) false
/-- examples/tests/11-ranap.rs:796-800 -/
def Event1I_Parameters : Ty := .sequence true 0 (.required false INTEGER_13 .nil)
/-- examples/tests/11-ranap.rs:3429-3431 -/
def ReportAmount : Ty := .enumerated .u8 (some 0) (some 7) true
/-- examples/tests/11-ranap.rs:3458-3460 -/
def ReportInterval : Ty := .enumerated .u8 (some 0) (some 12) true
/-- examples/tests/11-ranap.rs:1981-1986 -/
def MDT_Report_Parameters : Ty := .sequence true 0 (.required false ReportInterval (.required false ReportAmount .nil))
/-- examples/tests/11-ranap.rs:1585-1592 -/
def M2Report : Ty := .choice 0 1 true (.cons 0 false MDT_Report_Parameters (.cons 1 false Event1I_Parameters .nil))
/-- examples/tests/11-ranap.rs:5686-5688 -/
def INTEGER_12 : Ty := .integer .i8 (some (-120)) (some 165) false
/-- examples/tests/11-ranap.rs:2041-2043 -/
def MeasurementQuantity : Ty := .enumerated .u8 (some 0) (some 2) true
/-- examples/tests/11-ranap.rs:789-794 -/
def Event1F_Parameters : Ty := .sequence true 0 (.required false MeasurementQuantity (.required false INTEGER_12 .nil))
/-- examples/tests/11-ranap.rs:1576-1583 -/
def M1Report : Ty := .choice 0 1 true (.cons 0 false MDT_Report_Parameters (.cons 1 false Event1F_Parameters .nil))
/-- examples/tests/11-ranap.rs:2050-2052 -/
def MeasurementsToActivate : Ty := .bitstring (some 8) (some 8) false
/-- examples/tests/11-ranap.rs:1142-1152 -/
def ImmediateMDT : Ty := .sequence true 3 (.required false MeasurementsToActivate (.optional 0 M1Report (.optional 1 M2Report (.optional 2 ImmediateMDTIE_Extensions .nil))))
/-- examples/tests/11-ranap.rs:2001-2008 -/
def MDTMode : Ty := .choice 0 1 true (.cons 0 false ImmediateMDT (.cons 1 false LoggedMDT .nil))
/-- examples/tests/11-ranap.rs:8216-8218 -/
def NULL_45 : Ty := .null
/-- examples/tests/11-ranap.rs:1988-1999 -/
def MDTAreaScope : Ty := .choice 0 3 true (.cons 0 false CellBased (.cons 1 false LABased (.cons 2 false RABased (.cons 3 false NULL_45 .nil))))
/-- examples/tests/11-ranap.rs:1958-1960 -/
def MDT_Activation : Ty := .enumerated .u8 (some 0) (some 2) true
/-- examples/tests/11-ranap.rs:1967-1975 -/
def MDT_Configuration : Ty := .sequence true 1 (.required false MDT_Activation (.required false MDTAreaScope (.required false MDTMode (.optional 0 MDT_ConfigurationIE_Extensions .nil))))
/-- examples/tests/11-ranap.rs:4816-4829 -/
def CN_InvokeTraceProtocolExtensions_EntryExtensionValue : Ty := .openType (.cons 244 false MDT_Configuration (.cons 251 false TransportLayerAddress (.cons 125 false TracePropagationParameters (.cons 292 false UE_Application_Layer_Measurement_Configuration .nil))))
/-- examples/tests/11-ranap.rs:4831-4838 -/
def CN_InvokeTraceProtocolExtensions_Entry : Ty := .sequence false 0 (.required true ProtocolExtensionID (.required false Criticality (.required false CN_InvokeTraceProtocolExtensions_EntryExtensionValue .nil)))
/-- examples/tests/11-ranap.rs:4840-4847 -/
def CN_InvokeTraceProtocolExtensions : Ty := .sequenceOf (some 1) (some 65535) false CN_InvokeTraceProtocolExtensions_Entry
/-- examples/tests/11-ranap.rs:1092-1094 -/
def IMEISV : Ty := .octetstring (some 8) (some 8) false
/-- examples/tests/11-ranap.rs:1075-1077 -/
def IMEI : Ty := .octetstring (some 8) (some 8) false
/-- examples/tests/11-ranap.rs:1109-1109 -/
def IMSI : Ty := TBCD_STRING
/-- examples/tests/11-ranap.rs:4294-4303 -/
def UE_ID : Ty := .choice 0 1 true (.cons 0 false IMSI (.cons 1 false IMEI (.cons 0 true IMEISV .nil)))
/-- examples/tests/11-ranap.rs:4175-4177 -/
def TraceType : Ty := .octetstring (some 1) (some 1) false
/-- examples/tests/11-ranap.rs:2120-2127 -/
def OMC_ID : Ty := .octetstring (some 3) (some 22) false
/-- examples/tests/11-ranap.rs:4783-4796 -/
def CN_InvokeTraceProtocolIEs_EntryValue : Ty := .openType (.cons 19 false OMC_ID (.cons 65 false TraceReference (.cons 66 false TraceType (.cons 68 false TriggerID (.cons 69 false UE_ID .nil)))))
/-- examples/tests/11-ranap.rs:4798-4805 -/
def CN_InvokeTraceProtocolIEs_Entry : Ty := .sequence false 0 (.required true ProtocolIE_ID (.required false Criticality (.required false CN_InvokeTraceProtocolIEs_EntryValue .nil)))
/-- examples/tests/11-ranap.rs:4807-4814 -/
def CN_InvokeTraceProtocolIEs : Ty := .sequenceOf (some 0) (some 65535) false CN_InvokeTraceProtocolIEs_Entry
/-- examples/tests/11-ranap.rs:301-307 -/
def CN_InvokeTrace : Ty := .sequence true 1 (.required false CN_InvokeTraceProtocolIEs (.optional 0 CN_InvokeTraceProtocolExtensions .nil))
/-- examples/tests/11-ranap.rs:4849-4851 -/
def CNMBMSLinkingInformationIE_Extensions_Entry : Ty := .sequence false 0 .nil
/-- examples/tests/11-ranap.rs:4853-4862 -/
def CNMBMSLinkingInformationIE_Extensions : Ty := .sequenceOf (some 1) (some 65535) false CNMBMSLinkingInformationIE_Extensions_Entry
/-- examples/tests/11-ranap.rs:6755-6757 -/
def JoinedMBMSBearerService_IEs_EntryIE_Extensions_Entry : Ty := .sequence false 0 .nil
/-- examples/tests/11-ranap.rs:6759-6768 -/
def JoinedMBMSBearerService_IEs_EntryIE_Extensions : Ty := .sequenceOf (some 1) (some 65535) false JoinedMBMSBearerService_IEs_EntryIE_Extensions_Entry
/-- examples/tests/11-ranap.rs:1710-1712 -/
def MBMS_PTP_RAB_ID : Ty := .bitstring (some 8) (some 8) false
/-- examples/tests/11-ranap.rs:11973-11975 -/
def TMGIIE_Extensions_Entry : Ty := .sequence false 0 .nil
/-- examples/tests/11-ranap.rs:11977-11984 -/
def TMGIIE_Extensions : Ty := .sequenceOf (some 1) (some 65535) false TMGIIE_Extensions_Entry
/-- examples/tests/11-ranap.rs:11969-11971 -/
def OCTET_STRING_62 : Ty := .octetstring (some 3) (some 3) false
/-- examples/tests/11-ranap.rs:3996-4003 -/
def TMGI : Ty := .sequence false 1 (.required false PLMNidentity (.required false OCTET_STRING_62 (.optional 0 TMGIIE_Extensions .nil)))
/-- examples/tests/11-ranap.rs:6770-6777 -/
def JoinedMBMSBearerService_IEs_Entry : Ty := .sequence true 1 (.required false TMGI (.required false MBMS_PTP_RAB_ID (.optional 0 JoinedMBMSBearerService_IEs_EntryIE_Extensions .nil)))
/-- examples/tests/11-ranap.rs:1328-1335 -/
def JoinedMBMSBearerService_IEs : Ty := .sequenceOf (some 1) (some 128) false JoinedMBMSBearerService_IEs_Entry
/-- examples/tests/11-ranap.rs:309-315 -/
def CNMBMSLinkingInformation : Ty := .sequence true 1 (.required false JoinedMBMSBearerService_IEs (.optional 0 CNMBMSLinkingInformationIE_Extensions .nil))
/-- examples/tests/11-ranap.rs:317-319 -/
def CSFB_Information : Ty := .enumerated .u8 (some 0) (some 1) true
/-- examples/tests/11-ranap.rs:325-327 -/
def CSG_Id : Ty := .bitstring (some 27) (some 27) false
/-- examples/tests/11-ranap.rs:329-336 -/
def CSG_Id_List : Ty := .sequenceOf (some 1) (some 256) false CSG_Id
/-- examples/tests/11-ranap.rs:338-340 -/
def CSG_Membership_Status : Ty := .enumerated .u8 (some 0) (some 1) true
/-- examples/tests/11-ranap.rs:385-387 -/
def CauseRadioNetworkExtension : Ty := .integer .u16 (some 257) (some 512) false
/-- examples/tests/11-ranap.rs:373-375 -/
def CauseNon_Standard : Ty := .integer .u16 (some 129) (some 256) false
/-- examples/tests/11-ranap.rs:365-367 -/
def CauseMisc : Ty := .integer .u8 (some 113) (some 128) false
/-- examples/tests/11-ranap.rs:377-379 -/
def CauseProtocol : Ty := .integer .u8 (some 97) (some 112) false
/-- examples/tests/11-ranap.rs:369-371 -/
def CauseNAS : Ty := .integer .u8 (some 81) (some 96) false
/-- examples/tests/11-ranap.rs:389-391 -/
def CauseTransmissionNetwork : Ty := .integer .u8 (some 65) (some 80) false
/-- examples/tests/11-ranap.rs:381-383 -/
def CauseRadioNetwork : Ty := .integer .u8 (some 1) (some 64) false
/-- examples/tests/11-ranap.rs:346-363 -/
def Cause : Ty := .choice 0 5 true (.cons 0 false CauseRadioNetwork (.cons 1 false CauseTransmissionNetwork (.cons 2 false CauseNAS (.cons 3 false CauseProtocol (.cons 4 false CauseMisc (.cons 5 false CauseNon_Standard (.cons 0 true CauseRadioNetworkExtension .nil)))))))
/-- examples/tests/11-ranap.rs:393-395 -/
def Cell_Access_Mode : Ty := .enumerated .u8 (some 0) (some 0) true
/-- examples/tests/11-ranap.rs:400-402 -/
def Cell_Capacity_Class_Value : Ty := .integer .u8 (some 1) (some 100) true
/-- examples/tests/11-ranap.rs:4877-4879 -/
def CellLoadInformationIE_Extensions_Entry : Ty := .sequence false 0 .nil
/-- examples/tests/11-ranap.rs:4881-4888 -/
def CellLoadInformationIE_Extensions : Ty := .sequenceOf (some 1) (some 65535) false CellLoadInformationIE_Extensions_Entry
/-- examples/tests/11-ranap.rs:2075-2077 -/
def NRTLoadInformationValue : Ty := .integer .u8 (some 0) (some 3) false
/-- examples/tests/11-ranap.rs:3281-3283 -/
def RTLoadValue : Ty := .integer .u8 (some 0) (some 100) false
/-- examples/tests/11-ranap.rs:1451-1453 -/
def LoadValue : Ty := .integer .u8 (some 0) (some 100) false
/-- examples/tests/11-ranap.rs:420-431 -/
def CellLoadInformation : Ty := .sequence true 3 (.required false Cell_Capacity_Class_Value (.required false LoadValue (.optional 0 RTLoadValue (.optional 1 NRTLoadInformationValue (.optional 2 CellLoadInformationIE_Extensions .nil)))))
/-- examples/tests/11-ranap.rs:4890-4892 -/
def CellLoadInformationGroupIE_Extensions_Entry : Ty := .sequence false 0 .nil
/-- examples/tests/11-ranap.rs:4894-4903 -/
def CellLoadInformationGroupIE_Extensions : Ty := .sequenceOf (some 1) (some 65535) false CellLoadInformationGroupIE_Extensions_Entry
/-- examples/tests/11-ranap.rs:11898-11900 -/
def SourceUTRANCellIDIE_Extensions_Entry : Ty := .sequence false 0 .nil
/-- examples/tests/11-ranap.rs:11902-11909 -/
def SourceUTRANCellIDIE_Extensions : Ty := .sequenceOf (some 1) (some 65535) false SourceUTRANCellIDIE_Extensions_Entry
/-- examples/tests/11-ranap.rs:4035-4037 -/
def TargetCellId : Ty := .integer .u32 (some 0) (some 268435455) false
/-- examples/tests/11-ranap.rs:3941-3948 -/
def SourceUTRANCellID : Ty := .sequence false 1 (.required false PLMNidentity (.required false TargetCellId (.optional 0 SourceUTRANCellIDIE_Extensions .nil)))
/-- examples/tests/11-ranap.rs:3878-3885 -/
def SourceCellID : Ty := .choice 0 1 true (.cons 0 false SourceUTRANCellID (.cons 1 false CGI .nil))
/-- examples/tests/11-ranap.rs:433-443 -/
def CellLoadInformationGroup : Ty := .sequence true 3 (.required false SourceCellID (.optional 0 CellLoadInformation (.optional 1 CellLoadInformation (.optional 2 CellLoadInformationGroupIE_Extensions .nil))))
/-- examples/tests/11-ranap.rs:445-447 -/
def CellType : Ty := .enumerated .u8 (some 0) (some 3) true
/-- examples/tests/11-ranap.rs:698-700 -/
def EncryptionAlgorithm : Ty := .integer .u8 (some 0) (some 15) false
/-- examples/tests/11-ranap.rs:455-455 -/
def ChosenEncryptionAlgorithm : Ty := EncryptionAlgorithm
/-- examples/tests/11-ranap.rs:1243-1245 -/
def IntegrityProtectionAlgorithm : Ty := .integer .u8 (some 0) (some 15) false
/-- examples/tests/11-ranap.rs:457-457 -/
def ChosenIntegrityProtectionAlgorithm : Ty := IntegrityProtectionAlgorithm
/-- examples/tests/11-ranap.rs:459-461 -/
def CivicAddress : Ty := .octetstring none none false
/-- examples/tests/11-ranap.rs:463-465 -/
def ClassmarkInformation2 : Ty := .octetstring none none false
/-- examples/tests/11-ranap.rs:467-469 -/
def ClassmarkInformation3 : Ty := .octetstring none none false
/-- examples/tests/11-ranap.rs:471-473 -/
def ClientType : Ty := .enumerated .u8 (some 0) (some 7) true
/-- examples/tests/11-ranap.rs:12217-12219 -/
def UESBI_IuIE_Extensions_Entry : Ty := .sequence false 0 .nil
/-- examples/tests/11-ranap.rs:12221-12228 -/
def UESBI_IuIE_Extensions : Ty := .sequenceOf (some 1) (some 65535) false UESBI_IuIE_Extensions_Entry
/-- examples/tests/11-ranap.rs:4350-4352 -/
def UESBI_IuB : Ty := .bitstring (some 1) (some 128) false
/-- examples/tests/11-ranap.rs:4346-4348 -/
def UESBI_IuA : Ty := .bitstring (some 1) (some 128) false
/-- examples/tests/11-ranap.rs:4335-4344 -/
def UESBI_Iu : Ty := .sequence true 3 (.optional 0 UESBI_IuA (.optional 1 UESBI_IuB (.optional 2 UESBI_IuIE_Extensions .nil)))
/-- examples/tests/11-ranap.rs:3958-3960 -/
def SubscriberProfileIDforRFP : Ty := .integer .u16 (some 1) (some 256) false
/-- examples/tests/11-ranap.rs:3789-3791 -/
def SRVCC_Operation_Possible : Ty := .enumerated .u8 (some 0) (some 0) true
/-- examples/tests/11-ranap.rs:11414-11416 -/
def SNA_Access_InformationIE_Extensions_Entry : Ty := .sequence false 0 .nil
/-- examples/tests/11-ranap.rs:11418-11425 -/
def SNA_Access_InformationIE_Extensions : Ty := .sequenceOf (some 1) (some 65535) false SNA_Access_InformationIE_Extensions_Entry
/-- examples/tests/11-ranap.rs:3704-3710 -/
def SNA_Access_Information : Ty := .sequence true 1 (.required false AuthorisedPLMNs (.optional 0 SNA_Access_InformationIE_Extensions .nil))
/-- examples/tests/11-ranap.rs:3274-3276 -/
def RSRVCC_Operation_Possible : Ty := .enumerated .u8 (some 0) (some 0) true
/-- examples/tests/11-ranap.rs:2329-2331 -/
def PowerSavingIndicator : Ty := .enumerated .u8 (some 0) (some 1) true
/-- examples/tests/11-ranap.rs:2014-2016 -/
def Management_Based_MDT_Allowed : Ty := .enumerated .u8 (some 0) (some 0) true
/-- examples/tests/11-ranap.rs:4930-4955 -/
def CommonIDProtocolExtensions_EntryExtensionValue : Ty := .openType (.cons 234 false CSG_Membership_Status (.cons 277 false PLMNidentity (.cons 249 false Management_Based_MDT_Allowed (.cons 263 false MDT_PLMN_List (.cons 289 false PowerSavingIndicator (.cons 272 false RSRVCC_Operation_Possible (.cons 105 false SNA_Access_Information (.cons 228 false SRVCC_Operation_Possible (.cons 127 false PLMNidentity (.cons 202 false SubscriberProfileIDforRFP (.cons 118 false UESBI_Iu .nil)))))))))))
/-- examples/tests/11-ranap.rs:4957-4964 -/
def CommonIDProtocolExtensions_Entry : Ty := .sequence false 0 (.required true ProtocolExtensionID (.required false Criticality (.required false CommonIDProtocolExtensions_EntryExtensionValue .nil)))
/-- examples/tests/11-ranap.rs:4966-4973 -/
def CommonIDProtocolExtensions : Ty := .sequenceOf (some 1) (some 65535) false CommonIDProtocolExtensions_Entry
/-- examples/tests/11-ranap.rs:2276-2281 -/
def PermanentNAS_UE_ID : Ty := .choice 0 0 true (.cons 0 false IMSI .nil)
/-- examples/tests/11-ranap.rs:4905-4910 -/
def CommonIDProtocolIEs_EntryValue : Ty := .openType (.cons 23 false PermanentNAS_UE_ID .nil)
/-- examples/tests/11-ranap.rs:4912-4919 -/
def CommonIDProtocolIEs_Entry : Ty := .sequence false 0 (.required true ProtocolIE_ID (.required false Criticality (.required false CommonIDProtocolIEs_EntryValue .nil)))
/-- examples/tests/11-ranap.rs:4921-4928 -/
def CommonIDProtocolIEs : Ty := .sequenceOf (some 0) (some 65535) false CommonIDProtocolIEs_Entry
/-- examples/tests/11-ranap.rs:485-491 -/
def CommonID : Ty := .sequence true 1 (.required false CommonIDProtocolIEs (.optional 0 CommonIDProtocolExtensions .nil))
/-- examples/tests/11-ranap.rs:493-495 -/
def Correlation_ID : Ty := .octetstring (some 4) (some 4) false
/-- examples/tests/11-ranap.rs:4975-4977 -/
def CriticalityDiagnosticsIE_Extensions_Entry : Ty := .sequence false 0 .nil
/-- examples/tests/11-ranap.rs:4979-4986 -/
def CriticalityDiagnosticsIE_Extensions : Ty := .sequenceOf (some 1) (some 65535) false CriticalityDiagnosticsIE_Extensions_Entry
/-- examples/tests/11-ranap.rs:4239-4241 -/
def TypeOfError : Ty := .enumerated .u8 (some 0) (some 1) true
/-- examples/tests/11-ranap.rs:8220-8222 -/
def MessageStructure_EntryIE_Extensions_Entry : Ty := .sequence false 0 .nil
/-- examples/tests/11-ranap.rs:8224-8231 -/
def MessageStructure_EntryIE_Extensions : Ty := .sequenceOf (some 1) (some 65535) false MessageStructure_EntryIE_Extensions_Entry
/-- examples/tests/11-ranap.rs:3425-3427 -/
def RepetitionNumber1 : Ty := .integer .u16 (some 1) (some 256) false
/-- examples/tests/11-ranap.rs:8233-8241 -/
def MessageStructure_Entry : Ty := .sequence true 2 (.required false ProtocolIE_ID (.optional 0 RepetitionNumber1 (.optional 1 MessageStructure_EntryIE_Extensions .nil)))
/-- examples/tests/11-ranap.rs:2054-2061 -/
def MessageStructure : Ty := .sequenceOf (some 1) (some 256) false MessageStructure_Entry
/-- examples/tests/11-ranap.rs:4988-4995 -/
def CriticalityDiagnostics_IE_List_EntryIE_Extensions_EntryExtensionValue : Ty := .openType (.cons 88 false MessageStructure (.cons 93 false TypeOfError .nil))
/-- examples/tests/11-ranap.rs:4997-5004 -/
def CriticalityDiagnostics_IE_List_EntryIE_Extensions_Entry : Ty := .sequence false 0 (.required true ProtocolExtensionID (.required false Criticality (.required false CriticalityDiagnostics_IE_List_EntryIE_Extensions_EntryExtensionValue .nil)))
/-- examples/tests/11-ranap.rs:5006-5015 -/
def CriticalityDiagnostics_IE_List_EntryIE_Extensions : Ty := .sequenceOf (some 1) (some 65535) false CriticalityDiagnostics_IE_List_EntryIE_Extensions_Entry
/-- examples/tests/11-ranap.rs:3421-3423 -/
def RepetitionNumber0 : Ty := .integer .u8 (some 0) (some 255) false
/-- examples/tests/11-ranap.rs:5017-5026 -/
def CriticalityDiagnostics_IE_List_Entry : Ty := .sequence true 2 (.required false Criticality (.required false ProtocolIE_ID (.optional 0 RepetitionNumber0 (.optional 1 CriticalityDiagnostics_IE_List_EntryIE_Extensions .nil))))
/-- examples/tests/11-ranap.rs:521-528 -/
def CriticalityDiagnostics_IE_List : Ty := .sequenceOf (some 1) (some 256) false CriticalityDiagnostics_IE_List_Entry
/-- examples/tests/11-ranap.rs:4219-4221 -/
def TriggeringMessage : Ty := .enumerated .u8 (some 0) (some 3) false
/-- examples/tests/11-ranap.rs:2385-2387 -/
def ProcedureCode : Ty := .integer .u8 (some 0) (some 255) false
/-- examples/tests/11-ranap.rs:506-519 -/
def CriticalityDiagnostics : Ty := .sequence true 5 (.optional 0 ProcedureCode (.optional 1 TriggeringMessage (.optional 2 Criticality (.optional 3 CriticalityDiagnostics_IE_List (.optional 4 CriticalityDiagnosticsIE_Extensions .nil)))))
/-- examples/tests/11-ranap.rs:530-532 -/
def D_RNTI : Ty := .integer .u32 (some 0) (some 1048575) false
/-- examples/tests/11-ranap.rs:534-536 -/
def DCH_ID : Ty := .integer .u8 (some 0) (some 255) false
/-- examples/tests/11-ranap.rs:538-540 -/
def DCN_ID : Ty := .integer .u16 (some 0) (some 65535) false
/-- examples/tests/11-ranap.rs:542-544 -/
def DL_GTP_PDU_SequenceNumber : Ty := .integer .u16 (some 0) (some 65535) false
/-- examples/tests/11-ranap.rs:546-548 -/
def DL_N_PDU_SequenceNumber : Ty := .integer .u16 (some 0) (some 65535) false
/-- examples/tests/11-ranap.rs:550-552 -/
def DRX_CycleLengthCoefficient : Ty := .integer .u8 (some 6) (some 9) false
/-- examples/tests/11-ranap.rs:554-556 -/
def DSCH_ID : Ty := .integer .u8 (some 0) (some 255) false
/-- examples/tests/11-ranap.rs:558-560 -/
def DataPDUType : Ty := .enumerated .u8 (some 0) (some 1) true
/-- examples/tests/11-ranap.rs:5028-5030 -/
def DataVolumeList_EntryIE_Extensions_Entry : Ty := .sequence false 0 .nil
/-- examples/tests/11-ranap.rs:5032-5039 -/
def DataVolumeList_EntryIE_Extensions : Ty := .sequenceOf (some 1) (some 65535) false DataVolumeList_EntryIE_Extensions_Entry
/-- examples/tests/11-ranap.rs:570-572 -/
def DataVolumeReference : Ty := .integer .u8 (some 0) (some 255) false
/-- examples/tests/11-ranap.rs:4458-4460 -/
def UnsuccessfullyTransmittedDataVolume : Ty := .integer .u32 (some 0) (some 4294967295) false
/-- examples/tests/11-ranap.rs:5041-5049 -/
def DataVolumeList_Entry : Ty := .sequence true 2 (.required false UnsuccessfullyTransmittedDataVolume (.optional 0 DataVolumeReference (.optional 1 DataVolumeList_EntryIE_Extensions .nil)))
/-- examples/tests/11-ranap.rs:566-568 -/
def DataVolumeList : Ty := .sequenceOf (some 1) (some 2) false DataVolumeList_Entry
/-- examples/tests/11-ranap.rs:5080-5082 -/
def DataVolumeReportProtocolExtensions_Entry : Ty := .sequence false 0 .nil
/-- examples/tests/11-ranap.rs:5084-5091 -/
def DataVolumeReportProtocolExtensions : Ty := .sequenceOf (some 1) (some 65535) false DataVolumeReportProtocolExtensions_Entry
/-- examples/tests/11-ranap.rs:9977-9979 -/
def RABs_failed_to_reportItemIE_Extensions_Entry : Ty := .sequence false 0 .nil
/-- examples/tests/11-ranap.rs:9981-9990 -/
def RABs_failed_to_reportItemIE_Extensions : Ty := .sequenceOf (some 1) (some 65535) false RABs_failed_to_reportItemIE_Extensions_Entry
/-- examples/tests/11-ranap.rs:2615-2617 -/
def RAB_ID : Ty := .bitstring (some 8) (some 8) false
/-- examples/tests/11-ranap.rs:3090-3097 -/
def RABs_failed_to_reportItem : Ty := .sequence true 1 (.required false RAB_ID (.required false Cause (.optional 0 RABs_failed_to_reportItemIE_Extensions .nil)))
/-- examples/tests/11-ranap.rs:9007-9012 -/
def RAB_FailedtoReportList_Entry_EntryValue : Ty := .openType (.cons 71 false RABs_failed_to_reportItem .nil)
/-- examples/tests/11-ranap.rs:9014-9021 -/
def RAB_FailedtoReportList_Entry_Entry : Ty := .sequence false 0 (.required true ProtocolIE_ID (.required false Criticality (.required false RAB_FailedtoReportList_Entry_EntryValue .nil)))
/-- examples/tests/11-ranap.rs:9023-9030 -/
def RAB_FailedtoReportList_Entry : Ty := .sequenceOf (some 0) (some 65535) false RAB_FailedtoReportList_Entry_Entry
/-- examples/tests/11-ranap.rs:2606-2613 -/
def RAB_FailedtoReportList : Ty := .sequenceOf (some 1) (some 256) false RAB_FailedtoReportList_Entry
/-- examples/tests/11-ranap.rs:8845-8847 -/
def RAB_DataVolumeReportItemIE_Extensions_Entry : Ty := .sequence false 0 .nil
/-- examples/tests/11-ranap.rs:8849-8858 -/
def RAB_DataVolumeReportItemIE_Extensions : Ty := .sequenceOf (some 1) (some 65535) false RAB_DataVolumeReportItemIE_Extensions_Entry
/-- examples/tests/11-ranap.rs:2533-2541 -/
def RAB_DataVolumeReportItem : Ty := .sequence true 2 (.required false RAB_ID (.optional 0 DataVolumeList (.optional 1 RAB_DataVolumeReportItemIE_Extensions .nil)))
/-- examples/tests/11-ranap.rs:8860-8865 -/
def RAB_DataVolumeReportList_Entry_EntryValue : Ty := .openType (.cons 30 false RAB_DataVolumeReportItem .nil)
/-- examples/tests/11-ranap.rs:8867-8874 -/
def RAB_DataVolumeReportList_Entry_Entry : Ty := .sequence false 0 (.required true ProtocolIE_ID (.required false Criticality (.required false RAB_DataVolumeReportList_Entry_EntryValue .nil)))
/-- examples/tests/11-ranap.rs:8876-8883 -/
def RAB_DataVolumeReportList_Entry : Ty := .sequenceOf (some 0) (some 65535) false RAB_DataVolumeReportList_Entry_Entry
/-- examples/tests/11-ranap.rs:2543-2550 -/
def RAB_DataVolumeReportList : Ty := .sequenceOf (some 1) (some 256) false RAB_DataVolumeReportList_Entry
/-- examples/tests/11-ranap.rs:5051-5060 -/
def DataVolumeReportProtocolIEs_EntryValue : Ty := .openType (.cons 9 false CriticalityDiagnostics (.cons 31 false RAB_DataVolumeReportList (.cons 72 false RAB_FailedtoReportList .nil)))
/-- examples/tests/11-ranap.rs:5062-5069 -/
def DataVolumeReportProtocolIEs_Entry : Ty := .sequence false 0 (.required true ProtocolIE_ID (.required false Criticality (.required false DataVolumeReportProtocolIEs_EntryValue .nil)))
/-- examples/tests/11-ranap.rs:5071-5078 -/
def DataVolumeReportProtocolIEs : Ty := .sequenceOf (some 0) (some 65535) false DataVolumeReportProtocolIEs_Entry
/-- examples/tests/11-ranap.rs:574-580 -/
def DataVolumeReport : Ty := .sequence true 1 (.required false DataVolumeReportProtocolIEs (.optional 0 DataVolumeReportProtocolExtensions .nil))
/-- examples/tests/11-ranap.rs:5118-5120 -/
def DataVolumeReportRequestProtocolExtensions_Entry : Ty := .sequence false 0 .nil
/-- examples/tests/11-ranap.rs:5122-5131 -/
def DataVolumeReportRequestProtocolExtensions : Ty := .sequenceOf (some 1) (some 65535) false DataVolumeReportRequestProtocolExtensions_Entry
/-- examples/tests/11-ranap.rs:8885-8887 -/
def RAB_DataVolumeReportRequestItemIE_Extensions_Entry : Ty := .sequence false 0 .nil
/-- examples/tests/11-ranap.rs:8889-8898 -/
def RAB_DataVolumeReportRequestItemIE_Extensions : Ty := .sequenceOf (some 1) (some 65535) false RAB_DataVolumeReportRequestItemIE_Extensions_Entry
/-- examples/tests/11-ranap.rs:2552-2558 -/
def RAB_DataVolumeReportRequestItem : Ty := .sequence true 1 (.required false RAB_ID (.optional 0 RAB_DataVolumeReportRequestItemIE_Extensions .nil))
/-- examples/tests/11-ranap.rs:8900-8905 -/
def RAB_DataVolumeReportRequestList_Entry_EntryValue : Ty := .openType (.cons 32 false RAB_DataVolumeReportRequestItem .nil)
/-- examples/tests/11-ranap.rs:8907-8914 -/
def RAB_DataVolumeReportRequestList_Entry_Entry : Ty := .sequence false 0 (.required true ProtocolIE_ID (.required false Criticality (.required false RAB_DataVolumeReportRequestList_Entry_EntryValue .nil)))
/-- examples/tests/11-ranap.rs:8916-8925 -/
def RAB_DataVolumeReportRequestList_Entry : Ty := .sequenceOf (some 0) (some 65535) false RAB_DataVolumeReportRequestList_Entry_Entry
/-- examples/tests/11-ranap.rs:2560-2567 -/
def RAB_DataVolumeReportRequestList : Ty := .sequenceOf (some 1) (some 256) false RAB_DataVolumeReportRequestList_Entry
/-- examples/tests/11-ranap.rs:5093-5098 -/
def DataVolumeReportRequestProtocolIEs_EntryValue : Ty := .openType (.cons 33 false RAB_DataVolumeReportRequestList .nil)
/-- examples/tests/11-ranap.rs:5100-5107 -/
def DataVolumeReportRequestProtocolIEs_Entry : Ty := .sequence false 0 (.required true ProtocolIE_ID (.required false Criticality (.required false DataVolumeReportRequestProtocolIEs_EntryValue .nil)))
/-- examples/tests/11-ranap.rs:5109-5116 -/
def DataVolumeReportRequestProtocolIEs : Ty := .sequenceOf (some 0) (some 65535) false DataVolumeReportRequestProtocolIEs_Entry
/-- examples/tests/11-ranap.rs:582-588 -/
def DataVolumeReportRequest : Ty := .sequence true 1 (.required false DataVolumeReportRequestProtocolIEs (.optional 0 DataVolumeReportRequestProtocolExtensions .nil))
/-- examples/tests/11-ranap.rs:590-592 -/
def DataVolumeReportingIndication : Ty := .enumerated .u8 (some 0) (some 1) false
/-- examples/tests/11-ranap.rs:1383-1390 -/
def LAListofIdleModeUEs : Ty := .sequenceOf (some 1) (some 65536) false LAI
/-- examples/tests/11-ranap.rs:5133-5140 -/
def DeltaRAListofIdleModeUEsIE_Extensions_EntryExtensionValue : Ty := .openType (.cons 182 false LAListofIdleModeUEs (.cons 181 false LAListofIdleModeUEs .nil))
/-- examples/tests/11-ranap.rs:5142-5149 -/
def DeltaRAListofIdleModeUEsIE_Extensions_Entry : Ty := .sequence false 0 (.required true ProtocolExtensionID (.required false Criticality (.required false DeltaRAListofIdleModeUEsIE_Extensions_EntryExtensionValue .nil)))
/-- examples/tests/11-ranap.rs:5151-5160 -/
def DeltaRAListofIdleModeUEsIE_Extensions : Ty := .sequenceOf (some 1) (some 65535) false DeltaRAListofIdleModeUEsIE_Extensions_Entry
/-- examples/tests/11-ranap.rs:3125-3132 -/
def RAListwithNoIdleModeUEsAnyMore : Ty := .sequenceOf (some 1) (some 65536) false RAC
/-- examples/tests/11-ranap.rs:2083-2090 -/
def NewRAListofIdleModeUEs : Ty := .sequenceOf (some 1) (some 65536) false RAC
/-- examples/tests/11-ranap.rs:615-624 -/
def DeltaRAListofIdleModeUEs : Ty := .sequence false 3 (.optional 0 NewRAListofIdleModeUEs (.optional 1 RAListwithNoIdleModeUEsAnyMore (.optional 2 DeltaRAListofIdleModeUEsIE_Extensions .nil)))
/-- examples/tests/11-ranap.rs:810-812 -/
def ExtendedRNC_ID : Ty := .integer .u16 (some 4096) (some 65535) false
/-- examples/tests/11-ranap.rs:5195-5200 -/
def DirectInformationTransferProtocolExtensions_EntryExtensionValue : Ty := .openType (.cons 171 false ExtendedRNC_ID .nil)
/-- examples/tests/11-ranap.rs:5202-5209 -/
def DirectInformationTransferProtocolExtensions_Entry : Ty := .sequence false 0 (.required true ProtocolExtensionID (.required false Criticality (.required false DirectInformationTransferProtocolExtensions_EntryExtensionValue .nil)))
/-- examples/tests/11-ranap.rs:5211-5220 -/
def DirectInformationTransferProtocolExtensions : Ty := .sequenceOf (some 1) (some 65535) false DirectInformationTransferProtocolExtensions_Entry
/-- examples/tests/11-ranap.rs:10204-10206 -/
def RIM_TransferIE_Extensions_Entry : Ty := .sequence false 0 .nil
/-- examples/tests/11-ranap.rs:10208-10215 -/
def RIM_TransferIE_Extensions : Ty := .sequenceOf (some 1) (some 65535) false RIM_TransferIE_Extensions_Entry
/-- examples/tests/11-ranap.rs:11956-11958 -/
def TAIIE_Extensions_Entry : Ty := .sequence false 0 .nil
/-- examples/tests/11-ranap.rs:11960-11967 -/
def TAIIE_Extensions : Ty := .sequenceOf (some 1) (some 65535) false TAIIE_Extensions_Entry
/-- examples/tests/11-ranap.rs:3979-3981 -/
def TAC : Ty := .octetstring (some 2) (some 2) false
/-- examples/tests/11-ranap.rs:3983-3990 -/
def TAI : Ty := .sequence false 1 (.required false PLMNidentity (.required false TAC (.optional 0 TAIIE_Extensions .nil)))
/-- examples/tests/11-ranap.rs:12016-12018 -/
def TargetENB_IDIE_Extensions_Entry : Ty := .sequence false 0 .nil
/-- examples/tests/11-ranap.rs:12020-12027 -/
def TargetENB_IDIE_Extensions : Ty := .sequenceOf (some 1) (some 65535) false TargetENB_IDIE_Extensions_Entry
/-- examples/tests/11-ranap.rs:5344-5346 -/
def BIT_STRING_10 : Ty := .bitstring (some 21) (some 21) false
/-- examples/tests/11-ranap.rs:5340-5342 -/
def BIT_STRING_9 : Ty := .bitstring (some 18) (some 18) false
/-- examples/tests/11-ranap.rs:5336-5338 -/
def BIT_STRING_8 : Ty := .bitstring (some 28) (some 28) false
/-- examples/tests/11-ranap.rs:5332-5334 -/
def BIT_STRING_7 : Ty := .bitstring (some 20) (some 20) false
/-- examples/tests/11-ranap.rs:681-692 -/
def ENB_ID : Ty := .choice 0 1 true (.cons 0 false BIT_STRING_7 (.cons 1 false BIT_STRING_8 (.cons 0 true BIT_STRING_9 (.cons 1 true BIT_STRING_10 .nil))))
/-- examples/tests/11-ranap.rs:4039-4047 -/
def TargetENB_ID : Ty := .sequence true 1 (.required false PLMNidentity (.required false ENB_ID (.optional 0 TargetENB_IDIE_Extensions (.required false TAI .nil))))
/-- examples/tests/11-ranap.rs:5911-5913 -/
def GERAN_Cell_IDIE_Extensions_Entry : Ty := .sequence false 0 .nil
/-- examples/tests/11-ranap.rs:5915-5922 -/
def GERAN_Cell_IDIE_Extensions : Ty := .sequenceOf (some 1) (some 65535) false GERAN_Cell_IDIE_Extensions_Entry
/-- examples/tests/11-ranap.rs:932-940 -/
def GERAN_Cell_ID : Ty := .sequence false 1 (.required false LAI (.required false RAC (.required false CI (.optional 0 GERAN_Cell_IDIE_Extensions .nil))))
/-- examples/tests/11-ranap.rs:12029-12034 -/
def TargetRNC_IDIE_Extensions_EntryExtensionValue : Ty := .openType (.cons 171 false ExtendedRNC_ID .nil)
/-- examples/tests/11-ranap.rs:12036-12043 -/
def TargetRNC_IDIE_Extensions_Entry : Ty := .sequence false 0 (.required true ProtocolExtensionID (.required false Criticality (.required false TargetRNC_IDIE_Extensions_EntryExtensionValue .nil)))
/-- examples/tests/11-ranap.rs:12045-12052 -/
def TargetRNC_IDIE_Extensions : Ty := .sequenceOf (some 1) (some 65535) false TargetRNC_IDIE_Extensions_Entry
/-- examples/tests/11-ranap.rs:3213-3215 -/
def RNC_ID : Ty := .integer .u16 (some 0) (some 4095) false
/-- examples/tests/11-ranap.rs:4060-4069 -/
def TargetRNC_ID : Ty := .sequence false 2 (.required false LAI (.optional 0 RAC (.required false RNC_ID (.optional 1 TargetRNC_IDIE_Extensions .nil))))
/-- examples/tests/11-ranap.rs:3202-3211 -/
def RIMRoutingAddress : Ty := .choice 0 1 true (.cons 0 false TargetRNC_ID (.cons 1 false GERAN_Cell_ID (.cons 0 true TargetENB_ID .nil)))
/-- examples/tests/11-ranap.rs:3198-3200 -/
def RIMInformation : Ty := .octetstring none none false
/-- examples/tests/11-ranap.rs:3188-3196 -/
def RIM_Transfer : Ty := .sequence false 2 (.required false RIMInformation (.optional 0 RIMRoutingAddress (.optional 1 RIM_TransferIE_Extensions .nil)))
/-- examples/tests/11-ranap.rs:1276-1281 -/
def InterSystemInformationTransferType : Ty := .choice 0 0 true (.cons 0 false RIM_Transfer .nil)
/-- examples/tests/11-ranap.rs:1008-1013 -/
def GlobalRNC_ID : Ty := .sequence false 0 (.required false PLMNidentity (.required false RNC_ID .nil))
/-- examples/tests/11-ranap.rs:1001-1006 -/
def GlobalCN_ID : Ty := .sequence false 0 (.required false PLMNidentity (.required false CN_ID .nil))
/-- examples/tests/11-ranap.rs:5162-5173 -/
def DirectInformationTransferProtocolIEs_EntryValue : Ty := .openType (.cons 3 false CN_DomainIndicator (.cons 96 false GlobalCN_ID (.cons 86 false GlobalRNC_ID (.cons 126 false InterSystemInformationTransferType .nil))))
/-- examples/tests/11-ranap.rs:5175-5182 -/
def DirectInformationTransferProtocolIEs_Entry : Ty := .sequence false 0 (.required true ProtocolIE_ID (.required false Criticality (.required false DirectInformationTransferProtocolIEs_EntryValue .nil)))
/-- examples/tests/11-ranap.rs:5184-5193 -/
def DirectInformationTransferProtocolIEs : Ty := .sequenceOf (some 0) (some 65535) false DirectInformationTransferProtocolIEs_Entry
/-- examples/tests/11-ranap.rs:626-632 -/
def DirectInformationTransfer : Ty := .sequence true 1 (.required false DirectInformationTransferProtocolIEs (.optional 0 DirectInformationTransferProtocolExtensions .nil))
/-- examples/tests/11-ranap.rs:634-636 -/
def DirectReportingIndicator : Ty := .enumerated .u8 (some 0) (some 1) true
/-- examples/tests/11-ranap.rs:3313-3315 -/
def RejectCauseValue : Ty := .enumerated .u8 (some 0) (some 5) true
/-- examples/tests/11-ranap.rs:2067-2069 -/
def NAS_SequenceNumber : Ty := .bitstring (some 2) (some 2) false
/-- examples/tests/11-ranap.rs:2063-2065 -/
def NAS_PDU : Ty := .octetstring none none false
/-- examples/tests/11-ranap.rs:10310-10323 -/
def RedirectionIndication_EntryValue : Ty := .openType (.cons 280 false Additional_CSPS_coordination_information (.cons 16 false NAS_PDU (.cons 130 false NAS_SequenceNumber (.cons 23 false PermanentNAS_UE_ID (.cons 131 false RejectCauseValue .nil)))))
/-- examples/tests/11-ranap.rs:10325-10332 -/
def RedirectionIndication_Entry : Ty := .sequence false 0 (.required true ProtocolIE_ID (.required false Criticality (.required false RedirectionIndication_EntryValue .nil)))
/-- examples/tests/11-ranap.rs:3304-3311 -/
def RedirectionIndication : Ty := .sequenceOf (some 0) (some 65535) false RedirectionIndication_Entry
/-- examples/tests/11-ranap.rs:3297-3299 -/
def RedirectionCompleted : Ty := .enumerated .u8 (some 0) (some 0) true
/-- examples/tests/11-ranap.rs:1392-1399 -/
def LHN_ID : Ty := .octetstring (some 32) (some 256) false
/-- examples/tests/11-ranap.rs:5255-5270 -/
def DirectTransferProtocolExtensions_EntryExtensionValue : Ty := .openType (.cons 241 false TransportLayerAddress (.cons 275 false LHN_ID (.cons 128 false RedirectionCompleted (.cons 129 false RedirectionIndication (.cons 273 false TransportLayerAddress (.cons 202 false SubscriberProfileIDforRFP .nil))))))
/-- examples/tests/11-ranap.rs:5272-5279 -/
def DirectTransferProtocolExtensions_Entry : Ty := .sequence false 0 (.required true ProtocolExtensionID (.required false Criticality (.required false DirectTransferProtocolExtensions_EntryExtensionValue .nil)))
/-- examples/tests/11-ranap.rs:5281-5288 -/
def DirectTransferProtocolExtensions : Ty := .sequenceOf (some 1) (some 65535) false DirectTransferProtocolExtensions_Entry
/-- examples/tests/11-ranap.rs:3666-3668 -/
def SAPI : Ty := .enumerated .u8 (some 0) (some 1) true
/-- examples/tests/11-ranap.rs:5222-5235 -/
def DirectTransferProtocolIEs_EntryValue : Ty := .openType (.cons 15 false LAI (.cons 16 false NAS_PDU (.cons 55 false RAC (.cons 58 false SAI (.cons 59 false SAPI .nil)))))
/-- examples/tests/11-ranap.rs:5237-5244 -/
def DirectTransferProtocolIEs_Entry : Ty := .sequence false 0 (.required true ProtocolIE_ID (.required false Criticality (.required false DirectTransferProtocolIEs_EntryValue .nil)))
/-- examples/tests/11-ranap.rs:5246-5253 -/
def DirectTransferProtocolIEs : Ty := .sequenceOf (some 0) (some 65535) false DirectTransferProtocolIEs_Entry
/-- examples/tests/11-ranap.rs:642-648 -/
def DirectTransfer : Ty := .sequence true 1 (.required false DirectTransferProtocolIEs (.optional 0 DirectTransferProtocolExtensions .nil))
/-- examples/tests/11-ranap.rs:5290-5292 -/
def DirectTransferInformationItem_RANAP_RelocInfIE_Extensions_Entry : Ty := .sequence false 0 .nil
/-- examples/tests/11-ranap.rs:5294-5303 -/
def DirectTransferInformationItem_RANAP_RelocInfIE_Extensions : Ty := .sequenceOf (some 1) (some 65535) false DirectTransferInformationItem_RANAP_RelocInfIE_Extensions_Entry
/-- examples/tests/11-ranap.rs:650-658 -/
def DirectTransferInformationItem_RANAP_RelocInf : Ty := .sequence true 1 (.required false NAS_PDU (.required false SAPI (.required false CN_DomainIndicator (.optional 0 DirectTransferInformationItem_RANAP_RelocInfIE_Extensions .nil))))
/-- examples/tests/11-ranap.rs:5305-5310 -/
def DirectTransferInformationList_RANAP_RelocInf_Entry_EntryValue : Ty := .openType (.cons 80 false DirectTransferInformationItem_RANAP_RelocInf .nil)
/-- examples/tests/11-ranap.rs:5312-5319 -/
def DirectTransferInformationList_RANAP_RelocInf_Entry_Entry : Ty := .sequence false 0 (.required true ProtocolIE_ID (.required false Criticality (.required false DirectTransferInformationList_RANAP_RelocInf_Entry_EntryValue .nil)))
/-- examples/tests/11-ranap.rs:5321-5330 -/
def DirectTransferInformationList_RANAP_RelocInf_Entry : Ty := .sequenceOf (some 0) (some 65535) false DirectTransferInformationList_RANAP_RelocInf_Entry_Entry
/-- examples/tests/11-ranap.rs:660-664 -/
def DirectTransferInformationList_RANAP_RelocInf : Ty := .sequenceOf (some 1) (some 15) false DirectTransferInformationList_RANAP_RelocInf_Entry
/-- examples/tests/11-ranap.rs:666-668 -/
def E_DCH_MAC_d_Flow_ID : Ty := .integer .u8 (some 0) (some 7) false
/-- examples/tests/11-ranap.rs:670-672 -/
def E_UTRAN_Service_Handover : Ty := .enumerated .u8 (some 0) (some 0) true
/-- examples/tests/11-ranap.rs:677-679 -/
def EARFCN_Extended : Ty := .integer .u32 (some 65536) (some 262143) true
/-- examples/tests/11-ranap.rs:5352-5357 -/
def EUTRANFrequencies_EntryIE_Extensions_EntryExtensionValue : Ty := .openType (.cons 271 false EARFCN_Extended .nil)
/-- examples/tests/11-ranap.rs:5359-5366 -/
def EUTRANFrequencies_EntryIE_Extensions_Entry : Ty := .sequence false 0 (.required true ProtocolExtensionID (.required false Criticality (.required false EUTRANFrequencies_EntryIE_Extensions_EntryExtensionValue .nil)))
/-- examples/tests/11-ranap.rs:5368-5377 -/
def EUTRANFrequencies_EntryIE_Extensions : Ty := .sequenceOf (some 1) (some 65535) false EUTRANFrequencies_EntryIE_Extensions_Entry
/-- examples/tests/11-ranap.rs:2029-2031 -/
def MeasBand : Ty := .enumerated .u8 (some 0) (some 5) false
/-- examples/tests/11-ranap.rs:5348-5350 -/
def INTEGER_11 : Ty := .integer .u16 (some 0) (some 65535) false
/-- examples/tests/11-ranap.rs:5379-5387 -/
def EUTRANFrequencies_Entry : Ty := .sequence false 2 (.required false INTEGER_11 (.optional 0 MeasBand (.optional 1 EUTRANFrequencies_EntryIE_Extensions .nil)))
/-- examples/tests/11-ranap.rs:694-696 -/
def EUTRANFrequencies : Ty := .sequenceOf (some 1) (some 8) false EUTRANFrequencies_Entry
/-- examples/tests/11-ranap.rs:5389-5391 -/
def EncryptionInformationIE_Extensions_Entry : Ty := .sequence false 0 .nil
/-- examples/tests/11-ranap.rs:5393-5400 -/
def EncryptionInformationIE_Extensions : Ty := .sequenceOf (some 1) (some 65535) false EncryptionInformationIE_Extensions_Entry
/-- examples/tests/11-ranap.rs:711-718 -/
def EncryptionKey : Ty := .bitstring (some 128) (some 128) false
/-- examples/tests/11-ranap.rs:2283-2285 -/
def PermittedEncryptionAlgorithms : Ty := .sequenceOf (some 1) (some 16) false EncryptionAlgorithm
/-- examples/tests/11-ranap.rs:702-709 -/
def EncryptionInformation : Ty := .sequence false 1 (.required false PermittedEncryptionAlgorithms (.required false EncryptionKey (.optional 0 EncryptionInformationIE_Extensions .nil)))
/-- examples/tests/11-ranap.rs:720-722 -/
def End_Of_CSFB : Ty := .enumerated .u8 (some 0) (some 0) true
/-- examples/tests/11-ranap.rs:5429-5431 -/
def EnhancedRelocationCompleteConfirmProtocolExtensions_Entry : Ty := .sequence false 0 .nil
/-- examples/tests/11-ranap.rs:5433-5442 -/
def EnhancedRelocationCompleteConfirmProtocolExtensions : Ty := .sequenceOf (some 1) (some 65535) false EnhancedRelocationCompleteConfirmProtocolExtensions_Entry
/-- examples/tests/11-ranap.rs:8927-8929 -/
def RAB_FailedItemIE_Extensions_Entry : Ty := .sequence false 0 .nil
/-- examples/tests/11-ranap.rs:8931-8938 -/
def RAB_FailedItemIE_Extensions : Ty := .sequenceOf (some 1) (some 65535) false RAB_FailedItemIE_Extensions_Entry
/-- examples/tests/11-ranap.rs:2569-2576 -/
def RAB_FailedItem : Ty := .sequence true 1 (.required false RAB_ID (.required false Cause (.optional 0 RAB_FailedItemIE_Extensions .nil)))
/-- examples/tests/11-ranap.rs:8955-8960 -/
def RAB_FailedList_Entry_EntryValue : Ty := .openType (.cons 34 false RAB_FailedItem .nil)
/-- examples/tests/11-ranap.rs:8962-8969 -/
def RAB_FailedList_Entry_Entry : Ty := .sequence false 0 (.required true ProtocolIE_ID (.required false Criticality (.required false RAB_FailedList_Entry_EntryValue .nil)))
/-- examples/tests/11-ranap.rs:8971-8978 -/
def RAB_FailedList_Entry : Ty := .sequenceOf (some 0) (some 65535) false RAB_FailedList_Entry_Entry
/-- examples/tests/11-ranap.rs:2588-2595 -/
def RAB_FailedList : Ty := .sequenceOf (some 1) (some 256) false RAB_FailedList_Entry
/-- examples/tests/11-ranap.rs:5402-5407 -/
def EnhancedRelocationCompleteConfirmProtocolIEs_EntryValue : Ty := .openType (.cons 35 false RAB_FailedList .nil)
/-- examples/tests/11-ranap.rs:5409-5416 -/
def EnhancedRelocationCompleteConfirmProtocolIEs_Entry : Ty := .sequence false 0 (.required true ProtocolIE_ID (.required false Criticality (.required false EnhancedRelocationCompleteConfirmProtocolIEs_EntryValue .nil)))
/-- examples/tests/11-ranap.rs:5418-5427 -/
def EnhancedRelocationCompleteConfirmProtocolIEs : Ty := .sequenceOf (some 0) (some 65535) false EnhancedRelocationCompleteConfirmProtocolIEs_Entry
/-- examples/tests/11-ranap.rs:727-733 -/
def EnhancedRelocationCompleteConfirm : Ty := .sequence true 1 (.required false EnhancedRelocationCompleteConfirmProtocolIEs (.optional 0 EnhancedRelocationCompleteConfirmProtocolExtensions .nil))
/-- examples/tests/11-ranap.rs:5473-5475 -/
def EnhancedRelocationCompleteFailureProtocolExtensions_Entry : Ty := .sequence false 0 .nil
/-- examples/tests/11-ranap.rs:5477-5486 -/
def EnhancedRelocationCompleteFailureProtocolExtensions : Ty := .sequenceOf (some 1) (some 65535) false EnhancedRelocationCompleteFailureProtocolExtensions_Entry
/-- examples/tests/11-ranap.rs:5444-5451 -/
def EnhancedRelocationCompleteFailureProtocolIEs_EntryValue : Ty := .openType (.cons 4 false Cause (.cons 9 false CriticalityDiagnostics .nil))
/-- examples/tests/11-ranap.rs:5453-5460 -/
def EnhancedRelocationCompleteFailureProtocolIEs_Entry : Ty := .sequence false 0 (.required true ProtocolIE_ID (.required false Criticality (.required false EnhancedRelocationCompleteFailureProtocolIEs_EntryValue .nil)))
/-- examples/tests/11-ranap.rs:5462-5471 -/
def EnhancedRelocationCompleteFailureProtocolIEs : Ty := .sequenceOf (some 0) (some 65535) false EnhancedRelocationCompleteFailureProtocolIEs_Entry
/-- examples/tests/11-ranap.rs:735-741 -/
def EnhancedRelocationCompleteFailure : Ty := .sequence true 1 (.required false EnhancedRelocationCompleteFailureProtocolIEs (.optional 0 EnhancedRelocationCompleteFailureProtocolExtensions .nil))
/-- examples/tests/11-ranap.rs:12169-12171 -/
def TunnelInformationIE_Extensions_Entry : Ty := .sequence false 0 .nil
/-- examples/tests/11-ranap.rs:12173-12180 -/
def TunnelInformationIE_Extensions : Ty := .sequenceOf (some 1) (some 65535) false TunnelInformationIE_Extensions_Entry
/-- examples/tests/11-ranap.rs:2291-2293 -/
def Port_Number : Ty := .octetstring (some 2) (some 2) false
/-- examples/tests/11-ranap.rs:4229-4237 -/
def TunnelInformation : Ty := .sequence true 2 (.required false TransportLayerAddress (.optional 0 Port_Number (.optional 1 TunnelInformationIE_Extensions .nil)))
/-- examples/tests/11-ranap.rs:1023-1025 -/
def HigherBitratesThan16MbpsFlag : Ty := .enumerated .u8 (some 0) (some 1) true
/-- examples/tests/11-ranap.rs:5527-5544 -/
def EnhancedRelocationCompleteRequestProtocolExtensions_EntryExtensionValue : Ty := .openType (.cons 203 false CSG_Id (.cons 235 false Cell_Access_Mode (.cons 5 false ChosenEncryptionAlgorithm (.cons 6 false ChosenIntegrityProtectionAlgorithm (.cons 250 false HigherBitratesThan16MbpsFlag (.cons 275 false LHN_ID (.cons 262 false TunnelInformation .nil)))))))
/-- examples/tests/11-ranap.rs:5546-5553 -/
def EnhancedRelocationCompleteRequestProtocolExtensions_Entry : Ty := .sequence false 0 (.required true ProtocolExtensionID (.required false Criticality (.required false EnhancedRelocationCompleteRequestProtocolExtensions_EntryExtensionValue .nil)))
/-- examples/tests/11-ranap.rs:5555-5564 -/
def EnhancedRelocationCompleteRequestProtocolExtensions : Ty := .sequenceOf (some 1) (some 65535) false EnhancedRelocationCompleteRequestProtocolExtensions_Entry
/-- examples/tests/11-ranap.rs:9419-9421 -/
def RAB_SetupItem_EnhancedRelocCompleteReqIE_Extensions_Entry : Ty := .sequence false 0 .nil
/-- examples/tests/11-ranap.rs:9423-9432 -/
def RAB_SetupItem_EnhancedRelocCompleteReqIE_Extensions : Ty := .sequenceOf (some 1) (some 65535) false RAB_SetupItem_EnhancedRelocCompleteReqIE_Extensions_Entry
/-- examples/tests/11-ranap.rs:968-970 -/
def GTP_TEI : Ty := .octetstring (some 4) (some 4) false
/-- examples/tests/11-ranap.rs:1319-1326 -/
def IuTransportAssociation : Ty := .choice 0 1 true (.cons 0 false GTP_TEI (.cons 1 false BindingID .nil))
/-- examples/tests/11-ranap.rs:2828-2840 -/
def RAB_SetupItem_EnhancedRelocCompleteReq : Ty := .sequence true 4 (.required false RAB_ID (.optional 0 TransportLayerAddress (.optional 1 IuTransportAssociation (.optional 2 Ass_RAB_Parameters (.optional 3 RAB_SetupItem_EnhancedRelocCompleteReqIE_Extensions .nil)))))
/-- examples/tests/11-ranap.rs:9575-9580 -/
def RAB_SetupList_EnhancedRelocCompleteReq_Entry_EntryValue : Ty := .openType (.cons 189 false RAB_SetupItem_EnhancedRelocCompleteReq .nil)
/-- examples/tests/11-ranap.rs:9582-9589 -/
def RAB_SetupList_EnhancedRelocCompleteReq_Entry_Entry : Ty := .sequence false 0 (.required true ProtocolIE_ID (.required false Criticality (.required false RAB_SetupList_EnhancedRelocCompleteReq_Entry_EntryValue .nil)))
/-- examples/tests/11-ranap.rs:9591-9600 -/
def RAB_SetupList_EnhancedRelocCompleteReq_Entry : Ty := .sequenceOf (some 0) (some 65535) false RAB_SetupList_EnhancedRelocCompleteReq_Entry_Entry
/-- examples/tests/11-ranap.rs:2909-2918 -/
def RAB_SetupList_EnhancedRelocCompleteReq : Ty := .sequenceOf (some 1) (some 256) false RAB_SetupList_EnhancedRelocCompleteReq_Entry
/-- examples/tests/11-ranap.rs:1315-1317 -/
def IuSignallingConnectionIdentifier : Ty := .bitstring (some 24) (some 24) false
/-- examples/tests/11-ranap.rs:5488-5505 -/
def EnhancedRelocationCompleteRequestProtocolIEs_EntryValue : Ty := .openType (.cons 79 false IuSignallingConnectionIdentifier (.cons 196 false IuSignallingConnectionIdentifier (.cons 188 false RAB_SetupList_EnhancedRelocCompleteReq (.cons 223 false ExtendedRNC_ID (.cons 222 false GlobalRNC_ID (.cons 213 false ExtendedRNC_ID (.cons 212 false GlobalRNC_ID .nil)))))))
/-- examples/tests/11-ranap.rs:5507-5514 -/
def EnhancedRelocationCompleteRequestProtocolIEs_Entry : Ty := .sequence false 0 (.required true ProtocolIE_ID (.required false Criticality (.required false EnhancedRelocationCompleteRequestProtocolIEs_EntryValue .nil)))
/-- examples/tests/11-ranap.rs:5516-5525 -/
def EnhancedRelocationCompleteRequestProtocolIEs : Ty := .sequenceOf (some 0) (some 65535) false EnhancedRelocationCompleteRequestProtocolIEs_Entry
/-- examples/tests/11-ranap.rs:743-749 -/
def EnhancedRelocationCompleteRequest : Ty := .sequence true 1 (.required false EnhancedRelocationCompleteRequestProtocolIEs (.optional 0 EnhancedRelocationCompleteRequestProtocolExtensions .nil))
/-- examples/tests/11-ranap.rs:4260-4262 -/
def UE_AggregateMaximumBitRateUplink : Ty := .integer .u32 (some 1) (some 1000000000) false
/-- examples/tests/11-ranap.rs:4256-4258 -/
def UE_AggregateMaximumBitRateDownlink : Ty := .integer .u32 (some 1) (some 1000000000) false
/-- examples/tests/11-ranap.rs:4247-4254 -/
def UE_AggregateMaximumBitRate : Ty := .sequence true 2 (.optional 0 UE_AggregateMaximumBitRateDownlink (.optional 1 UE_AggregateMaximumBitRateUplink .nil))
/-- examples/tests/11-ranap.rs:2010-2012 -/
def MSISDN : Ty := .octetstring (some 1) (some 9) false
/-- examples/tests/11-ranap.rs:5597-5606 -/
def EnhancedRelocationCompleteResponseProtocolExtensions_EntryExtensionValue : Ty := .openType (.cons 234 false CSG_Membership_Status (.cons 239 false MSISDN (.cons 233 false UE_AggregateMaximumBitRate .nil)))
/-- examples/tests/11-ranap.rs:5608-5615 -/
def EnhancedRelocationCompleteResponseProtocolExtensions_Entry : Ty := .sequence false 0 (.required true ProtocolExtensionID (.required false Criticality (.required false EnhancedRelocationCompleteResponseProtocolExtensions_EntryExtensionValue .nil)))
/-- examples/tests/11-ranap.rs:5617-5626 -/
def EnhancedRelocationCompleteResponseProtocolExtensions : Ty := .sequenceOf (some 1) (some 65535) false EnhancedRelocationCompleteResponseProtocolExtensions_Entry
/-- examples/tests/11-ranap.rs:9829-9831 -/
def RAB_ToBeReleasedItem_EnhancedRelocCompleteResIE_Extensions_Entry : Ty := .sequence false 0 .nil
/-- examples/tests/11-ranap.rs:9833-9842 -/
def RAB_ToBeReleasedItem_EnhancedRelocCompleteResIE_Extensions : Ty := .sequenceOf (some 1) (some 65535) false RAB_ToBeReleasedItem_EnhancedRelocCompleteResIE_Extensions_Entry
/-- examples/tests/11-ranap.rs:3022-3029 -/
def RAB_ToBeReleasedItem_EnhancedRelocCompleteRes : Ty := .sequence true 1 (.required false RAB_ID (.required false Cause (.optional 0 RAB_ToBeReleasedItem_EnhancedRelocCompleteResIE_Extensions .nil)))
/-- examples/tests/11-ranap.rs:9844-9849 -/
def RAB_ToBeReleasedList_EnhancedRelocCompleteRes_Entry_EntryValue : Ty := .openType (.cons 209 false RAB_ToBeReleasedItem_EnhancedRelocCompleteRes .nil)
/-- examples/tests/11-ranap.rs:9851-9858 -/
def RAB_ToBeReleasedList_EnhancedRelocCompleteRes_Entry_Entry : Ty := .sequence false 0 (.required true ProtocolIE_ID (.required false Criticality (.required false RAB_ToBeReleasedList_EnhancedRelocCompleteRes_Entry_EntryValue .nil)))
/-- examples/tests/11-ranap.rs:9860-9869 -/
def RAB_ToBeReleasedList_EnhancedRelocCompleteRes_Entry : Ty := .sequenceOf (some 0) (some 65535) false RAB_ToBeReleasedList_EnhancedRelocCompleteRes_Entry_Entry
/-- examples/tests/11-ranap.rs:3031-3040 -/
def RAB_ToBeReleasedList_EnhancedRelocCompleteRes : Ty := .sequenceOf (some 1) (some 256) false RAB_ToBeReleasedList_EnhancedRelocCompleteRes_Entry
/-- examples/tests/11-ranap.rs:8270-8272 -/
def Offload_RAB_ParametersIE_Extensions_Entry : Ty := .sequence false 0 .nil
/-- examples/tests/11-ranap.rs:8274-8281 -/
def Offload_RAB_ParametersIE_Extensions : Ty := .sequenceOf (some 1) (some 65535) false Offload_RAB_ParametersIE_Extensions_Entry
/-- examples/tests/11-ranap.rs:2147-2149 -/
def Offload_RAB_Parameters_ChargingCharacteristics : Ty := .octetstring (some 2) (some 2) false
/-- examples/tests/11-ranap.rs:2138-2145 -/
def Offload_RAB_Parameters_APN : Ty := .octetstring (some 1) (some 255) false
/-- examples/tests/11-ranap.rs:2129-2136 -/
def Offload_RAB_Parameters : Ty := .sequence true 1 (.required false Offload_RAB_Parameters_APN (.required false Offload_RAB_Parameters_ChargingCharacteristics (.optional 0 Offload_RAB_ParametersIE_Extensions .nil)))
/-- examples/tests/11-ranap.rs:9434-9439 -/
def RAB_SetupItem_EnhancedRelocCompleteResIE_Extensions_EntryExtensionValue : Ty := .openType (.cons 240 false Offload_RAB_Parameters .nil)
/-- examples/tests/11-ranap.rs:9441-9448 -/
def RAB_SetupItem_EnhancedRelocCompleteResIE_Extensions_Entry : Ty := .sequence false 0 (.required true ProtocolExtensionID (.required false Criticality (.required false RAB_SetupItem_EnhancedRelocCompleteResIE_Extensions_EntryExtensionValue .nil)))
/-- examples/tests/11-ranap.rs:9450-9459 -/
def RAB_SetupItem_EnhancedRelocCompleteResIE_Extensions : Ty := .sequenceOf (some 1) (some 65535) false RAB_SetupItem_EnhancedRelocCompleteResIE_Extensions_Entry
/-- examples/tests/11-ranap.rs:12683-12685 -/
def UserPlaneInformationIE_Extensions_Entry : Ty := .sequence false 0 .nil
/-- examples/tests/11-ranap.rs:12687-12694 -/
def UserPlaneInformationIE_Extensions : Ty := .sequenceOf (some 1) (some 65535) false UserPlaneInformationIE_Extensions_Entry
/-- examples/tests/11-ranap.rs:4370-4372 -/
def UP_ModeVersions : Ty := .bitstring (some 16) (some 16) false
/-- examples/tests/11-ranap.rs:4495-4497 -/
def UserPlaneMode : Ty := .enumerated .u8 (some 0) (some 1) true
/-- examples/tests/11-ranap.rs:4486-4493 -/
def UserPlaneInformation : Ty := .sequence true 1 (.required false UserPlaneMode (.required false UP_ModeVersions (.optional 0 UserPlaneInformationIE_Extensions .nil)))
/-- examples/tests/11-ranap.rs:2842-2857 -/
def RAB_SetupItem_EnhancedRelocCompleteRes : Ty := .sequence true 5 (.required false RAB_ID (.optional 0 RAB_Parameters (.required false UserPlaneInformation (.optional 1 TransportLayerAddress (.optional 2 IuTransportAssociation (.optional 3 RAB_ToBeReleasedList_EnhancedRelocCompleteRes (.optional 4 RAB_SetupItem_EnhancedRelocCompleteResIE_Extensions .nil)))))))
/-- examples/tests/11-ranap.rs:9602-9607 -/
def RAB_SetupList_EnhancedRelocCompleteRes_Entry_EntryValue : Ty := .openType (.cons 191 false RAB_SetupItem_EnhancedRelocCompleteRes .nil)
/-- examples/tests/11-ranap.rs:9609-9616 -/
def RAB_SetupList_EnhancedRelocCompleteRes_Entry_Entry : Ty := .sequence false 0 (.required true ProtocolIE_ID (.required false Criticality (.required false RAB_SetupList_EnhancedRelocCompleteRes_Entry_EntryValue .nil)))
/-- examples/tests/11-ranap.rs:9618-9627 -/
def RAB_SetupList_EnhancedRelocCompleteRes_Entry : Ty := .sequenceOf (some 0) (some 65535) false RAB_SetupList_EnhancedRelocCompleteRes_Entry_Entry
/-- examples/tests/11-ranap.rs:2920-2929 -/
def RAB_SetupList_EnhancedRelocCompleteRes : Ty := .sequenceOf (some 1) (some 256) false RAB_SetupList_EnhancedRelocCompleteRes_Entry
/-- examples/tests/11-ranap.rs:5566-5575 -/
def EnhancedRelocationCompleteResponseProtocolIEs_EntryValue : Ty := .openType (.cons 9 false CriticalityDiagnostics (.cons 190 false RAB_SetupList_EnhancedRelocCompleteRes (.cons 210 false RAB_ToBeReleasedList_EnhancedRelocCompleteRes .nil)))
/-- examples/tests/11-ranap.rs:5577-5584 -/
def EnhancedRelocationCompleteResponseProtocolIEs_Entry : Ty := .sequence false 0 (.required true ProtocolIE_ID (.required false Criticality (.required false EnhancedRelocationCompleteResponseProtocolIEs_EntryValue .nil)))
/-- examples/tests/11-ranap.rs:5586-5595 -/
def EnhancedRelocationCompleteResponseProtocolIEs : Ty := .sequenceOf (some 0) (some 65535) false EnhancedRelocationCompleteResponseProtocolIEs_Entry
/-- examples/tests/11-ranap.rs:751-757 -/
def EnhancedRelocationCompleteResponse : Ty := .sequence true 1 (.required false EnhancedRelocationCompleteResponseProtocolIEs (.optional 0 EnhancedRelocationCompleteResponseProtocolExtensions .nil))
/-- examples/tests/11-ranap.rs:6098-6100 -/
def IMEISVGroupIE_Extensions_Entry : Ty := .sequence false 0 .nil
/-- examples/tests/11-ranap.rs:6102-6109 -/
def IMEISVGroupIE_Extensions : Ty := .sequenceOf (some 1) (some 65535) false IMEISVGroupIE_Extensions_Entry
/-- examples/tests/11-ranap.rs:6094-6096 -/
def BIT_STRING_37 : Ty := .bitstring (some 7) (some 7) false
/-- examples/tests/11-ranap.rs:1096-1103 -/
def IMEISVGroup : Ty := .sequence false 1 (.required false IMEISV (.required false BIT_STRING_37 (.optional 0 IMEISVGroupIE_Extensions .nil)))
/-- examples/tests/11-ranap.rs:6081-6083 -/
def IMEIGroupIE_Extensions_Entry : Ty := .sequence false 0 .nil
/-- examples/tests/11-ranap.rs:6085-6092 -/
def IMEIGroupIE_Extensions : Ty := .sequenceOf (some 1) (some 65535) false IMEIGroupIE_Extensions_Entry
/-- examples/tests/11-ranap.rs:6077-6079 -/
def BIT_STRING_36 : Ty := .bitstring (some 7) (some 7) false
/-- examples/tests/11-ranap.rs:1079-1086 -/
def IMEIGroup : Ty := .sequence false 1 (.required false IMEI (.required false BIT_STRING_36 (.optional 0 IMEIGroupIE_Extensions .nil)))
/-- examples/tests/11-ranap.rs:1105-1107 -/
def IMEISVList : Ty := .sequenceOf (some 1) (some 64) false IMEISV
/-- examples/tests/11-ranap.rs:1088-1090 -/
def IMEIList : Ty := .sequenceOf (some 1) (some 64) false IMEI
/-- examples/tests/11-ranap.rs:759-770 -/
def EquipmentsToBeTraced : Ty := .choice 0 3 true (.cons 0 false IMEIList (.cons 1 false IMEISVList (.cons 2 false IMEIGroup (.cons 3 false IMEISVGroup .nil))))
/-- examples/tests/11-ranap.rs:5659-5666 -/
def ErrorIndicationProtocolExtensions_EntryExtensionValue : Ty := .openType (.cons 171 false ExtendedRNC_ID (.cons 96 false GlobalCN_ID .nil))
/-- examples/tests/11-ranap.rs:5668-5675 -/
def ErrorIndicationProtocolExtensions_Entry : Ty := .sequence false 0 (.required true ProtocolExtensionID (.required false Criticality (.required false ErrorIndicationProtocolExtensions_EntryExtensionValue .nil)))
/-- examples/tests/11-ranap.rs:5677-5684 -/
def ErrorIndicationProtocolExtensions : Ty := .sequenceOf (some 1) (some 65535) false ErrorIndicationProtocolExtensions_Entry
/-- examples/tests/11-ranap.rs:5628-5639 -/
def ErrorIndicationProtocolIEs_EntryValue : Ty := .openType (.cons 3 false CN_DomainIndicator (.cons 4 false Cause (.cons 9 false CriticalityDiagnostics (.cons 86 false GlobalRNC_ID .nil))))
/-- examples/tests/11-ranap.rs:5641-5648 -/
def ErrorIndicationProtocolIEs_Entry : Ty := .sequence false 0 (.required true ProtocolIE_ID (.required false Criticality (.required false ErrorIndicationProtocolIEs_EntryValue .nil)))
/-- examples/tests/11-ranap.rs:5650-5657 -/
def ErrorIndicationProtocolIEs : Ty := .sequenceOf (some 0) (some 65535) false ErrorIndicationProtocolIEs_Entry
/-- examples/tests/11-ranap.rs:772-778 -/
def ErrorIndication : Ty := .sequence true 1 (.required false ErrorIndicationProtocolIEs (.optional 0 ErrorIndicationProtocolExtensions .nil))
/-- examples/tests/11-ranap.rs:780-782 -/
def Event : Ty := .enumerated .u8 (some 0) (some 2) true
/-- examples/tests/11-ranap.rs:3243-3245 -/
def RRC_Container : Ty := .octetstring none none false
/-- examples/tests/11-ranap.rs:5719-5724 -/
def ForwardSRNS_ContextProtocolExtensions_EntryExtensionValue : Ty := .openType (.cons 103 false RRC_Container .nil)
/-- examples/tests/11-ranap.rs:5726-5733 -/
def ForwardSRNS_ContextProtocolExtensions_Entry : Ty := .sequence false 0 (.required true ProtocolExtensionID (.required false Criticality (.required false ForwardSRNS_ContextProtocolExtensions_EntryExtensionValue .nil)))
/-- examples/tests/11-ranap.rs:5735-5744 -/
def ForwardSRNS_ContextProtocolExtensions : Ty := .sequenceOf (some 1) (some 65535) false ForwardSRNS_ContextProtocolExtensions_Entry
/-- examples/tests/11-ranap.rs:8671-8673 -/
def RAB_ContextItemIE_Extensions_Entry : Ty := .sequence false 0 .nil
/-- examples/tests/11-ranap.rs:8675-8682 -/
def RAB_ContextItemIE_Extensions : Ty := .sequenceOf (some 1) (some 65535) false RAB_ContextItemIE_Extensions_Entry
/-- examples/tests/11-ranap.rs:4366-4368 -/
def UL_N_PDU_SequenceNumber : Ty := .integer .u16 (some 0) (some 65535) false
/-- examples/tests/11-ranap.rs:4362-4364 -/
def UL_GTP_PDU_SequenceNumber : Ty := .integer .u16 (some 0) (some 65535) false
/-- examples/tests/11-ranap.rs:2447-2461 -/
def RAB_ContextItem : Ty := .sequence true 5 (.required false RAB_ID (.optional 0 DL_GTP_PDU_SequenceNumber (.optional 1 UL_GTP_PDU_SequenceNumber (.optional 2 DL_N_PDU_SequenceNumber (.optional 3 UL_N_PDU_SequenceNumber (.optional 4 RAB_ContextItemIE_Extensions .nil))))))
/-- examples/tests/11-ranap.rs:8699-8704 -/
def RAB_ContextList_Entry_EntryValue : Ty := .openType (.cons 24 false RAB_ContextItem .nil)
/-- examples/tests/11-ranap.rs:8706-8713 -/
def RAB_ContextList_Entry_Entry : Ty := .sequence false 0 (.required true ProtocolIE_ID (.required false Criticality (.required false RAB_ContextList_Entry_EntryValue .nil)))
/-- examples/tests/11-ranap.rs:8715-8722 -/
def RAB_ContextList_Entry : Ty := .sequenceOf (some 0) (some 65535) false RAB_ContextList_Entry_Entry
/-- examples/tests/11-ranap.rs:2479-2486 -/
def RAB_ContextList : Ty := .sequenceOf (some 1) (some 256) false RAB_ContextList_Entry
/-- examples/tests/11-ranap.rs:5694-5699 -/
def ForwardSRNS_ContextProtocolIEs_EntryValue : Ty := .openType (.cons 25 false RAB_ContextList .nil)
/-- examples/tests/11-ranap.rs:5701-5708 -/
def ForwardSRNS_ContextProtocolIEs_Entry : Ty := .sequence false 0 (.required true ProtocolIE_ID (.required false Criticality (.required false ForwardSRNS_ContextProtocolIEs_EntryValue .nil)))
/-- examples/tests/11-ranap.rs:5710-5717 -/
def ForwardSRNS_ContextProtocolIEs : Ty := .sequenceOf (some 0) (some 65535) false ForwardSRNS_ContextProtocolIEs_Entry
/-- examples/tests/11-ranap.rs:814-820 -/
def ForwardSRNS_Context : Ty := .sequence true 1 (.required false ForwardSRNS_ContextProtocolIEs (.optional 0 ForwardSRNS_ContextProtocolExtensions .nil))
/-- examples/tests/11-ranap.rs:822-824 -/
def ForwardingIndication : Ty := .enumerated .u8 (some 0) (some 0) true
/-- examples/tests/11-ranap.rs:829-831 -/
def FrameSequenceNumber : Ty := .integer .u8 (some 0) (some 15) false
/-- examples/tests/11-ranap.rs:833-835 -/
def FrequenceLayerConvergenceFlag : Ty := .enumerated .u8 (some 0) (some 0) true
/-- examples/tests/11-ranap.rs:924-926 -/
def GANSS_PositioningMethodAndUsage : Ty := .octetstring (some 1) (some 1) false
/-- examples/tests/11-ranap.rs:920-922 -/
def GANSS_PositioningDataSet : Ty := .sequenceOf (some 1) (some 9) false GANSS_PositioningMethodAndUsage
/-- examples/tests/11-ranap.rs:928-930 -/
def GERAN_BSC_Container : Ty := .octetstring none none false
/-- examples/tests/11-ranap.rs:942-944 -/
def GERAN_Classmark : Ty := .octetstring none none false
/-- examples/tests/11-ranap.rs:5924-5926 -/
def GERAN_Iumode_RAB_Failed_RABAssgntResponse_ItemIE_Extensions_Entry : Ty := .sequence false 0 .nil
/-- examples/tests/11-ranap.rs:5928-5937 -/
def GERAN_Iumode_RAB_Failed_RABAssgntResponse_ItemIE_Extensions : Ty := .sequenceOf (some 1) (some 65535) false GERAN_Iumode_RAB_Failed_RABAssgntResponse_ItemIE_Extensions_Entry
/-- examples/tests/11-ranap.rs:946-955 -/
def GERAN_Iumode_RAB_Failed_RABAssgntResponse_Item : Ty := .sequence true 2 (.required false RAB_ID (.required false Cause (.optional 0 GERAN_Classmark (.optional 1 GERAN_Iumode_RAB_Failed_RABAssgntResponse_ItemIE_Extensions .nil))))
/-- examples/tests/11-ranap.rs:5939-5946 -/
def GERAN_Iumode_RAB_FailedList_RABAssgntResponse_Entry_EntryValue : Ty := .openType (.cons 109 false GERAN_Iumode_RAB_Failed_RABAssgntResponse_Item .nil)
/-- examples/tests/11-ranap.rs:5948-5955 -/
def GERAN_Iumode_RAB_FailedList_RABAssgntResponse_Entry_Entry : Ty := .sequence false 0 (.required true ProtocolIE_ID (.required false Criticality (.required false GERAN_Iumode_RAB_FailedList_RABAssgntResponse_Entry_EntryValue .nil)))
/-- examples/tests/11-ranap.rs:5957-5966 -/
def GERAN_Iumode_RAB_FailedList_RABAssgntResponse_Entry : Ty := .sequenceOf (some 0) (some 65535) false GERAN_Iumode_RAB_FailedList_RABAssgntResponse_Entry_Entry
/-- examples/tests/11-ranap.rs:957-966 -/
def GERAN_Iumode_RAB_FailedList_RABAssgntResponse : Ty := .sequenceOf (some 1) (some 256) false GERAN_Iumode_RAB_FailedList_RABAssgntResponse_Entry
/-- examples/tests/11-ranap.rs:1019-1021 -/
def HS_DSCH_MAC_d_Flow_ID : Ty := .integer .u8 (some 0) (some 7) false
/-- examples/tests/11-ranap.rs:6003-6005 -/
def INTEGER_32 : Ty := .integer .u16 (some 0) (some 2047) false
/-- examples/tests/11-ranap.rs:5999-6001 -/
def INTEGER_31 : Ty := .integer .u16 (some 0) (some 359) false
/-- examples/tests/11-ranap.rs:1031-1036 -/
def HorizontalSpeedAndBearing : Ty := .sequence false 0 (.required false INTEGER_31 (.required false INTEGER_32 .nil))
/-- examples/tests/11-ranap.rs:6007-6009 -/
def HorizontalVelocityIE_Extensions_Entry : Ty := .sequence false 0 .nil
/-- examples/tests/11-ranap.rs:6011-6018 -/
def HorizontalVelocityIE_Extensions : Ty := .sequenceOf (some 1) (some 65535) false HorizontalVelocityIE_Extensions_Entry
/-- examples/tests/11-ranap.rs:1038-1044 -/
def HorizontalVelocity : Ty := .sequence true 1 (.required false HorizontalSpeedAndBearing (.optional 0 HorizontalVelocityIE_Extensions .nil))
/-- examples/tests/11-ranap.rs:6024-6026 -/
def HorizontalVelocityWithUncertaintyIE_Extensions_Entry : Ty := .sequence false 0 .nil
/-- examples/tests/11-ranap.rs:6028-6037 -/
def HorizontalVelocityWithUncertaintyIE_Extensions : Ty := .sequenceOf (some 1) (some 65535) false HorizontalVelocityWithUncertaintyIE_Extensions_Entry
/-- examples/tests/11-ranap.rs:6020-6022 -/
def INTEGER_33 : Ty := .integer .u8 (some 0) (some 255) false
/-- examples/tests/11-ranap.rs:1046-1053 -/
def HorizontalVelocityWithUncertainty : Ty := .sequence true 1 (.required false HorizontalSpeedAndBearing (.required false INTEGER_33 (.optional 0 HorizontalVelocityWithUncertaintyIE_Extensions .nil)))
/-- examples/tests/11-ranap.rs:6039-6041 -/
def HorizontalWithVerticalVelocityIE_Extensions_Entry : Ty := .sequence false 0 .nil
/-- examples/tests/11-ranap.rs:6043-6052 -/
def HorizontalWithVerticalVelocityIE_Extensions : Ty := .sequenceOf (some 1) (some 65535) false HorizontalWithVerticalVelocityIE_Extensions_Entry
/-- examples/tests/11-ranap.rs:4520-4522 -/
def VerticalSpeedDirection : Ty := .enumerated .u8 (some 0) (some 1) false
/-- examples/tests/11-ranap.rs:12696-12698 -/
def INTEGER_64 : Ty := .integer .u8 (some 0) (some 255) false
/-- examples/tests/11-ranap.rs:4528-4533 -/
def VerticalVelocity : Ty := .sequence false 0 (.required false INTEGER_64 (.required false VerticalSpeedDirection .nil))
/-- examples/tests/11-ranap.rs:1055-1062 -/
def HorizontalWithVerticalVelocity : Ty := .sequence true 1 (.required false HorizontalSpeedAndBearing (.required false VerticalVelocity (.optional 0 HorizontalWithVerticalVelocityIE_Extensions .nil)))
/-- examples/tests/11-ranap.rs:6062-6064 -/
def HorizontalWithVerticalVelocityAndUncertaintyIE_Extensions_Entry : Ty := .sequence false 0 .nil
/-- examples/tests/11-ranap.rs:6066-6075 -/
def HorizontalWithVerticalVelocityAndUncertaintyIE_Extensions : Ty := .sequenceOf (some 1) (some 65535) false HorizontalWithVerticalVelocityAndUncertaintyIE_Extensions_Entry
/-- examples/tests/11-ranap.rs:6058-6060 -/
def INTEGER_35 : Ty := .integer .u8 (some 0) (some 255) false
/-- examples/tests/11-ranap.rs:6054-6056 -/
def INTEGER_34 : Ty := .integer .u8 (some 0) (some 255) false
/-- examples/tests/11-ranap.rs:1064-1073 -/
def HorizontalWithVerticalVelocityAndUncertainty : Ty := .sequence true 1 (.required false HorizontalSpeedAndBearing (.required false VerticalVelocity (.required false INTEGER_34 (.required false INTEGER_35 (.optional 0 HorizontalWithVerticalVelocityAndUncertaintyIE_Extensions .nil)))))
/-- examples/tests/11-ranap.rs:1111-1118 -/
def IPMulticastAddress : Ty := .octetstring (some 4) (some 16) false
/-- examples/tests/11-ranap.rs:10275-10277 -/
def BOOLEAN_53 : Ty := .boolean
/-- examples/tests/11-ranap.rs:10271-10273 -/
def BOOLEAN_52 : Ty := .boolean
/-- examples/tests/11-ranap.rs:3251-3256 -/
def RSRQ_Type : Ty := .sequence false 0 (.required false BOOLEAN_52 (.required false BOOLEAN_53 .nil))
/-- examples/tests/11-ranap.rs:3247-3249 -/
def RSRQ_Extension : Ty := .integer .i8 (some (-30)) (some 46) true
/-- examples/tests/11-ranap.rs:6119-6126 -/
def IRAT_Measurement_ConfigurationIE_Extensions_EntryExtensionValue : Ty := .openType (.cons 279 false RSRQ_Extension (.cons 278 false RSRQ_Type .nil))
/-- examples/tests/11-ranap.rs:6128-6135 -/
def IRAT_Measurement_ConfigurationIE_Extensions_Entry : Ty := .sequence false 0 (.required true ProtocolExtensionID (.required false Criticality (.required false IRAT_Measurement_ConfigurationIE_Extensions_EntryExtensionValue .nil)))
/-- examples/tests/11-ranap.rs:6137-6146 -/
def IRAT_Measurement_ConfigurationIE_Extensions : Ty := .sequenceOf (some 1) (some 65535) false IRAT_Measurement_ConfigurationIE_Extensions_Entry
/-- examples/tests/11-ranap.rs:6152-6154 -/
def IRATmeasurementParametersIE_Extensions_Entry : Ty := .sequence false 0 .nil
/-- examples/tests/11-ranap.rs:6156-6165 -/
def IRATmeasurementParametersIE_Extensions : Ty := .sequenceOf (some 1) (some 65535) false IRATmeasurementParametersIE_Extensions_Entry
/-- examples/tests/11-ranap.rs:6148-6150 -/
def INTEGER_40 : Ty := .integer .u8 (some 1) (some 100) false
/-- examples/tests/11-ranap.rs:1132-1140 -/
def IRATmeasurementParameters : Ty := .sequence false 2 (.required false INTEGER_40 (.optional 0 EUTRANFrequencies (.optional 1 IRATmeasurementParametersIE_Extensions .nil)))
/-- examples/tests/11-ranap.rs:6115-6117 -/
def INTEGER_39 : Ty := .integer .u8 (some 0) (some 34) false
/-- examples/tests/11-ranap.rs:6111-6113 -/
def INTEGER_38 : Ty := .integer .u8 (some 0) (some 97) false
/-- examples/tests/11-ranap.rs:1120-1130 -/
def IRAT_Measurement_Configuration : Ty := .sequence false 3 (.optional 0 INTEGER_38 (.optional 1 INTEGER_39 (.required false IRATmeasurementParameters (.optional 2 IRAT_Measurement_ConfigurationIE_Extensions .nil))))
/-- examples/tests/11-ranap.rs:1154-1156 -/
def IncludeVelocity : Ty := .enumerated .u8 (some 0) (some 0) false
/-- examples/tests/11-ranap.rs:1161-1163 -/
def InformationExchangeID : Ty := .integer .u32 (some 0) (some 1048575) false
/-- examples/tests/11-ranap.rs:1165-1167 -/
def InformationExchangeType : Ty := .enumerated .u8 (some 0) (some 1) true
/-- examples/tests/11-ranap.rs:1762-1769 -/
def MBMSIPMulticastAddressandAPNRequest : Ty := .sequenceOf (some 1) (some 512) false TMGI
/-- examples/tests/11-ranap.rs:1173-1180 -/
def InformationRequestType : Ty := .choice 0 1 true (.cons 0 false MBMSIPMulticastAddressandAPNRequest (.cons 1 false PermanentNAS_UE_ID .nil))
/-- examples/tests/11-ranap.rs:3552-3559 -/
def RequestedMulticastServiceList : Ty := .sequenceOf (some 1) (some 128) false TMGI
/-- examples/tests/11-ranap.rs:7373-7375 -/
def MBMSIPMulticastAddressandAPNlistIE_Extensions_Entry : Ty := .sequence false 0 .nil
/-- examples/tests/11-ranap.rs:7377-7386 -/
def MBMSIPMulticastAddressandAPNlistIE_Extensions : Ty := .sequenceOf (some 1) (some 65535) false MBMSIPMulticastAddressandAPNlistIE_Extensions_Entry
/-- examples/tests/11-ranap.rs:1771-1779 -/
def MBMSIPMulticastAddressandAPNlist : Ty := .sequence true 1 (.required false TMGI (.required false IPMulticastAddress (.required false APN (.optional 0 MBMSIPMulticastAddressandAPNlistIE_Extensions .nil))))
/-- examples/tests/11-ranap.rs:3543-3550 -/
def RequestedMBMSIPMulticastAddressandAPNRequest : Ty := .sequenceOf (some 1) (some 512) false MBMSIPMulticastAddressandAPNlist
/-- examples/tests/11-ranap.rs:1182-1189 -/
def InformationRequested : Ty := .choice 0 1 true (.cons 0 false RequestedMBMSIPMulticastAddressandAPNRequest (.cons 1 false RequestedMulticastServiceList .nil))
/-- examples/tests/11-ranap.rs:6231-6236 -/
def InformationTransferConfirmationProtocolExtensions_EntryExtensionValue : Ty := .openType (.cons 171 false ExtendedRNC_ID .nil)
/-- examples/tests/11-ranap.rs:6238-6245 -/
def InformationTransferConfirmationProtocolExtensions_Entry : Ty := .sequence false 0 (.required true ProtocolExtensionID (.required false Criticality (.required false InformationTransferConfirmationProtocolExtensions_EntryExtensionValue .nil)))
/-- examples/tests/11-ranap.rs:6247-6256 -/
def InformationTransferConfirmationProtocolExtensions : Ty := .sequenceOf (some 1) (some 65535) false InformationTransferConfirmationProtocolExtensions_Entry
/-- examples/tests/11-ranap.rs:1207-1209 -/
def InformationTransferID : Ty := .integer .u32 (some 0) (some 1048575) false
/-- examples/tests/11-ranap.rs:6198-6209 -/
def InformationTransferConfirmationProtocolIEs_EntryValue : Ty := .openType (.cons 3 false CN_DomainIndicator (.cons 9 false CriticalityDiagnostics (.cons 86 false GlobalRNC_ID (.cons 104 false InformationTransferID .nil))))
/-- examples/tests/11-ranap.rs:6211-6218 -/
def InformationTransferConfirmationProtocolIEs_Entry : Ty := .sequence false 0 (.required true ProtocolIE_ID (.required false Criticality (.required false InformationTransferConfirmationProtocolIEs_EntryValue .nil)))
/-- examples/tests/11-ranap.rs:6220-6229 -/
def InformationTransferConfirmationProtocolIEs : Ty := .sequenceOf (some 0) (some 65535) false InformationTransferConfirmationProtocolIEs_Entry
/-- examples/tests/11-ranap.rs:1191-1197 -/
def InformationTransferConfirmation : Ty := .sequence true 1 (.required false InformationTransferConfirmationProtocolIEs (.optional 0 InformationTransferConfirmationProtocolExtensions .nil))
/-- examples/tests/11-ranap.rs:6293-6298 -/
def InformationTransferFailureProtocolExtensions_EntryExtensionValue : Ty := .openType (.cons 171 false ExtendedRNC_ID .nil)
/-- examples/tests/11-ranap.rs:6300-6307 -/
def InformationTransferFailureProtocolExtensions_Entry : Ty := .sequence false 0 (.required true ProtocolExtensionID (.required false Criticality (.required false InformationTransferFailureProtocolExtensions_EntryExtensionValue .nil)))
/-- examples/tests/11-ranap.rs:6309-6318 -/
def InformationTransferFailureProtocolExtensions : Ty := .sequenceOf (some 1) (some 65535) false InformationTransferFailureProtocolExtensions_Entry
/-- examples/tests/11-ranap.rs:6258-6271 -/
def InformationTransferFailureProtocolIEs_EntryValue : Ty := .openType (.cons 3 false CN_DomainIndicator (.cons 4 false Cause (.cons 9 false CriticalityDiagnostics (.cons 86 false GlobalRNC_ID (.cons 104 false InformationTransferID .nil)))))
/-- examples/tests/11-ranap.rs:6273-6280 -/
def InformationTransferFailureProtocolIEs_Entry : Ty := .sequence false 0 (.required true ProtocolIE_ID (.required false Criticality (.required false InformationTransferFailureProtocolIEs_EntryValue .nil)))
/-- examples/tests/11-ranap.rs:6282-6291 -/
def InformationTransferFailureProtocolIEs : Ty := .sequenceOf (some 0) (some 65535) false InformationTransferFailureProtocolIEs_Entry
/-- examples/tests/11-ranap.rs:1199-1205 -/
def InformationTransferFailure : Ty := .sequence true 1 (.required false InformationTransferFailureProtocolIEs (.optional 0 InformationTransferFailureProtocolExtensions .nil))
/-- examples/tests/11-ranap.rs:6353-6355 -/
def InformationTransferIndicationProtocolExtensions_Entry : Ty := .sequence false 0 .nil
/-- examples/tests/11-ranap.rs:6357-6366 -/
def InformationTransferIndicationProtocolExtensions : Ty := .sequenceOf (some 1) (some 65535) false InformationTransferIndicationProtocolExtensions_Entry
/-- examples/tests/11-ranap.rs:11802-11804 -/
def Shared_Network_InformationIE_Extensions_Entry : Ty := .sequence false 0 .nil
/-- examples/tests/11-ranap.rs:11806-11815 -/
def Shared_Network_InformationIE_Extensions : Ty := .sequenceOf (some 1) (some 65535) false Shared_Network_InformationIE_Extensions_Entry
/-- examples/tests/11-ranap.rs:8369-8371 -/
def PLMNs_in_shared_network_EntryIE_Extensions_Entry : Ty := .sequence false 0 .nil
/-- examples/tests/11-ranap.rs:8373-8382 -/
def PLMNs_in_shared_network_EntryIE_Extensions : Ty := .sequenceOf (some 1) (some 65535) false PLMNs_in_shared_network_EntryIE_Extensions_Entry
/-- examples/tests/11-ranap.rs:6779-6781 -/
def LA_LIST_EntryIE_Extensions_Entry : Ty := .sequence false 0 .nil
/-- examples/tests/11-ranap.rs:6783-6790 -/
def LA_LIST_EntryIE_Extensions : Ty := .sequenceOf (some 1) (some 65535) false LA_LIST_EntryIE_Extensions_Entry
/-- examples/tests/11-ranap.rs:1438-1445 -/
def ListOF_SNAs : Ty := .sequenceOf (some 1) (some 65536) false SNAC
/-- examples/tests/11-ranap.rs:6792-6799 -/
def LA_LIST_Entry : Ty := .sequence true 1 (.required false LAC (.required false ListOF_SNAs (.optional 0 LA_LIST_EntryIE_Extensions .nil)))
/-- examples/tests/11-ranap.rs:1349-1356 -/
def LA_LIST : Ty := .sequenceOf (some 1) (some 65536) false LA_LIST_Entry
/-- examples/tests/11-ranap.rs:8384-8391 -/
def PLMNs_in_shared_network_Entry : Ty := .sequence true 1 (.required false PLMNidentity (.required false LA_LIST (.optional 0 PLMNs_in_shared_network_EntryIE_Extensions .nil)))
/-- examples/tests/11-ranap.rs:2227-2229 -/
def PLMNs_in_shared_network : Ty := .sequenceOf (some 1) (some 32) false PLMNs_in_shared_network_Entry
/-- examples/tests/11-ranap.rs:3855-3861 -/
def Shared_Network_Information : Ty := .sequence true 1 (.required false PLMNs_in_shared_network (.optional 0 Shared_Network_InformationIE_Extensions .nil))
/-- examples/tests/11-ranap.rs:2397-2402 -/
def ProvidedData : Ty := .choice 0 0 true (.cons 0 false Shared_Network_Information .nil)
/-- examples/tests/11-ranap.rs:6320-6331 -/
def InformationTransferIndicationProtocolIEs_EntryValue : Ty := .openType (.cons 3 false CN_DomainIndicator (.cons 96 false GlobalCN_ID (.cons 104 false InformationTransferID (.cons 106 false ProvidedData .nil))))
/-- examples/tests/11-ranap.rs:6333-6340 -/
def InformationTransferIndicationProtocolIEs_Entry : Ty := .sequence false 0 (.required true ProtocolIE_ID (.required false Criticality (.required false InformationTransferIndicationProtocolIEs_EntryValue .nil)))
/-- examples/tests/11-ranap.rs:6342-6351 -/
def InformationTransferIndicationProtocolIEs : Ty := .sequenceOf (some 0) (some 65535) false InformationTransferIndicationProtocolIEs_Entry
/-- examples/tests/11-ranap.rs:1211-1217 -/
def InformationTransferIndication : Ty := .sequence true 1 (.required false InformationTransferIndicationProtocolIEs (.optional 0 InformationTransferIndicationProtocolExtensions .nil))
/-- examples/tests/11-ranap.rs:12297-12299 -/
def UTRAN_CellIDIE_Extensions_Entry : Ty := .sequence false 0 .nil
/-- examples/tests/11-ranap.rs:12301-12308 -/
def UTRAN_CellIDIE_Extensions : Ty := .sequenceOf (some 1) (some 65535) false UTRAN_CellIDIE_Extensions_Entry
/-- examples/tests/11-ranap.rs:4395-4402 -/
def UTRAN_CellID : Ty := .sequence false 1 (.required false PLMNidentity (.required false TargetCellId (.optional 0 UTRAN_CellIDIE_Extensions .nil)))
/-- examples/tests/11-ranap.rs:10225-10236 -/
def RNCTraceInformationIE_Extensions_EntryExtensionValue : Ty := .openType (.cons 256 false IMSI (.cons 270 false UTRAN_CellID (.cons 251 false TransportLayerAddress (.cons 255 false TraceRecordingSessionReference .nil))))
/-- examples/tests/11-ranap.rs:10238-10245 -/
def RNCTraceInformationIE_Extensions_Entry : Ty := .sequence false 0 (.required true ProtocolExtensionID (.required false Criticality (.required false RNCTraceInformationIE_Extensions_EntryExtensionValue .nil)))
/-- examples/tests/11-ranap.rs:10247-10254 -/
def RNCTraceInformationIE_Extensions : Ty := .sequenceOf (some 1) (some 65535) false RNCTraceInformationIE_Extensions_Entry
/-- examples/tests/11-ranap.rs:10217-10219 -/
def ENUMERATED_51 : Ty := .enumerated .u8 (some 0) (some 1) false
/-- examples/tests/11-ranap.rs:3217-3226 -/
def RNCTraceInformation : Ty := .sequence false 2 (.required false TraceReference (.required false ENUMERATED_51 (.optional 0 EquipmentsToBeTraced (.optional 1 RNCTraceInformationIE_Extensions .nil))))
/-- examples/tests/11-ranap.rs:1219-1224 -/
def InformationTransferType : Ty := .choice 0 0 true (.cons 0 false RNCTraceInformation .nil)
/-- examples/tests/11-ranap.rs:4322-4324 -/
def UE_Usage_Type : Ty := .integer .u8 (some 0) (some 255) false
/-- examples/tests/11-ranap.rs:4264-4266 -/
def UE_Application_Layer_Measurement_Capability : Ty := .bitstring (some 8) (some 8) false
/-- examples/tests/11-ranap.rs:3691-3693 -/
def SGSN_Group_ID : Ty := .octetstring (some 2) (some 2) false
/-- examples/tests/11-ranap.rs:2108-2110 -/
def Null_NRI : Ty := .bitstring (some 10) (some 10) false
/-- examples/tests/11-ranap.rs:3695-3702 -/
def SGSN_Group_Identity : Ty := .choice 0 1 false (.cons 0 false Null_NRI (.cons 1 false SGSN_Group_ID .nil))
/-- examples/tests/11-ranap.rs:3293-3295 -/
def RedirectAttemptFlag : Ty := .null
/-- examples/tests/11-ranap.rs:6405-6442 -/
def InitialUE_MessageProtocolExtensions_EntryExtensionValue : Ty := .openType (.cons 203 false CSG_Id (.cons 235 false Cell_Access_Mode (.cons 291 false DCN_ID (.cons 171 false ExtendedRNC_ID (.cons 108 false GERAN_Classmark (.cons 250 false HigherBitratesThan16MbpsFlag (.cons 241 false TransportLayerAddress (.cons 275 false LHN_ID (.cons 130 false NAS_SequenceNumber (.cons 23 false PermanentNAS_UE_ID (.cons 166 false RedirectAttemptFlag (.cons 286 false SGSN_Group_Identity (.cons 273 false TransportLayerAddress (.cons 127 false PLMNidentity (.cons 262 false TunnelInformation (.cons 294 false UE_Application_Layer_Measurement_Capability (.cons 290 false UE_Usage_Type .nil)))))))))))))))))
/-- examples/tests/11-ranap.rs:6444-6451 -/
def InitialUE_MessageProtocolExtensions_Entry : Ty := .sequence false 0 (.required true ProtocolExtensionID (.required false Criticality (.required false InitialUE_MessageProtocolExtensions_EntryExtensionValue .nil)))
/-- examples/tests/11-ranap.rs:6453-6460 -/
def InitialUE_MessageProtocolExtensions : Ty := .sequenceOf (some 1) (some 65535) false InitialUE_MessageProtocolExtensions_Entry
/-- examples/tests/11-ranap.rs:6368-6385 -/
def InitialUE_MessageProtocolIEs_EntryValue : Ty := .openType (.cons 3 false CN_DomainIndicator (.cons 86 false GlobalRNC_ID (.cons 79 false IuSignallingConnectionIdentifier (.cons 15 false LAI (.cons 16 false NAS_PDU (.cons 55 false RAC (.cons 58 false SAI .nil)))))))
/-- examples/tests/11-ranap.rs:6387-6394 -/
def InitialUE_MessageProtocolIEs_Entry : Ty := .sequence false 0 (.required true ProtocolIE_ID (.required false Criticality (.required false InitialUE_MessageProtocolIEs_EntryValue .nil)))
/-- examples/tests/11-ranap.rs:6396-6403 -/
def InitialUE_MessageProtocolIEs : Ty := .sequenceOf (some 0) (some 65535) false InitialUE_MessageProtocolIEs_Entry
/-- examples/tests/11-ranap.rs:1226-1232 -/
def InitialUE_Message : Ty := .sequence true 1 (.required false InitialUE_MessageProtocolIEs (.optional 0 InitialUE_MessageProtocolExtensions .nil))
/-- examples/tests/11-ranap.rs:8513-8515 -/
def PrivateMessagePrivateIEs_Entry : Ty := .sequence false 0 .nil
/-- examples/tests/11-ranap.rs:8517-8524 -/
def PrivateMessagePrivateIEs : Ty := .sequenceOf (some 1) (some 65535) false PrivateMessagePrivateIEs_Entry
/-- examples/tests/11-ranap.rs:2379-2383 -/
def PrivateMessage : Ty := .sequence true 0 (.required false PrivateMessagePrivateIEs .nil)
/-- examples/tests/11-ranap.rs:12606-12611 -/
def UplinkInformationExchangeRequestProtocolExtensions_EntryExtensionValue : Ty := .openType (.cons 171 false ExtendedRNC_ID .nil)
/-- examples/tests/11-ranap.rs:12613-12620 -/
def UplinkInformationExchangeRequestProtocolExtensions_Entry : Ty := .sequence false 0 (.required true ProtocolExtensionID (.required false Criticality (.required false UplinkInformationExchangeRequestProtocolExtensions_EntryExtensionValue .nil)))
/-- examples/tests/11-ranap.rs:12622-12631 -/
def UplinkInformationExchangeRequestProtocolExtensions : Ty := .sequenceOf (some 1) (some 65535) false UplinkInformationExchangeRequestProtocolExtensions_Entry
/-- examples/tests/11-ranap.rs:12569-12584 -/
def UplinkInformationExchangeRequestProtocolIEs_EntryValue : Ty := .openType (.cons 3 false CN_DomainIndicator (.cons 86 false GlobalRNC_ID (.cons 136 false InformationExchangeID (.cons 137 false InformationExchangeType (.cons 139 false InformationRequestType (.cons 123 false InformationTransferType .nil))))))
/-- examples/tests/11-ranap.rs:12586-12593 -/
def UplinkInformationExchangeRequestProtocolIEs_Entry : Ty := .sequence false 0 (.required true ProtocolIE_ID (.required false Criticality (.required false UplinkInformationExchangeRequestProtocolIEs_EntryValue .nil)))
/-- examples/tests/11-ranap.rs:12595-12604 -/
def UplinkInformationExchangeRequestProtocolIEs : Ty := .sequenceOf (some 0) (some 65535) false UplinkInformationExchangeRequestProtocolIEs_Entry
/-- examples/tests/11-ranap.rs:4470-4476 -/
def UplinkInformationExchangeRequest : Ty := .sequence true 1 (.required false UplinkInformationExchangeRequestProtocolIEs (.optional 0 UplinkInformationExchangeRequestProtocolExtensions .nil))
/-- examples/tests/11-ranap.rs:12411-12413 -/
def UeRegistrationQueryRequestProtocolExtensions_Entry : Ty := .sequence false 0 .nil
/-- examples/tests/11-ranap.rs:12415-12424 -/
def UeRegistrationQueryRequestProtocolExtensions : Ty := .sequenceOf (some 1) (some 65535) false UeRegistrationQueryRequestProtocolExtensions_Entry
/-- examples/tests/11-ranap.rs:12382-12389 -/
def UeRegistrationQueryRequestProtocolIEs_EntryValue : Ty := .openType (.cons 79 false IuSignallingConnectionIdentifier (.cons 23 false PermanentNAS_UE_ID .nil))
/-- examples/tests/11-ranap.rs:12391-12398 -/
def UeRegistrationQueryRequestProtocolIEs_Entry : Ty := .sequence false 0 (.required true ProtocolIE_ID (.required false Criticality (.required false UeRegistrationQueryRequestProtocolIEs_EntryValue .nil)))
/-- examples/tests/11-ranap.rs:12400-12409 -/
def UeRegistrationQueryRequestProtocolIEs : Ty := .sequenceOf (some 0) (some 65535) false UeRegistrationQueryRequestProtocolIEs_Entry
/-- examples/tests/11-ranap.rs:4424-4430 -/
def UeRegistrationQueryRequest : Ty := .sequence true 1 (.required false UeRegistrationQueryRequestProtocolIEs (.optional 0 UeRegistrationQueryRequestProtocolExtensions .nil))
/-- examples/tests/11-ranap.rs:12325-12327 -/
def UeRadioCapabilityMatchRequestProtocolExtensions_Entry : Ty := .sequence false 0 .nil
/-- examples/tests/11-ranap.rs:12329-12338 -/
def UeRadioCapabilityMatchRequestProtocolExtensions : Ty := .sequenceOf (some 1) (some 65535) false UeRadioCapabilityMatchRequestProtocolExtensions_Entry
/-- examples/tests/11-ranap.rs:12310-12312 -/
def UeRadioCapabilityMatchRequestProtocolIEs_Entry : Ty := .sequence false 0 .nil
/-- examples/tests/11-ranap.rs:12314-12323 -/
def UeRadioCapabilityMatchRequestProtocolIEs : Ty := .sequenceOf (some 0) (some 65535) false UeRadioCapabilityMatchRequestProtocolIEs_Entry
/-- examples/tests/11-ranap.rs:4408-4414 -/
def UeRadioCapabilityMatchRequest : Ty := .sequence true 1 (.required false UeRadioCapabilityMatchRequestProtocolIEs (.optional 0 UeRadioCapabilityMatchRequestProtocolExtensions .nil))
/-- examples/tests/11-ranap.rs:12257-12259 -/
def UESpecificInformationIndicationProtocolExtensions_Entry : Ty := .sequence false 0 .nil
/-- examples/tests/11-ranap.rs:12261-12270 -/
def UESpecificInformationIndicationProtocolExtensions : Ty := .sequenceOf (some 1) (some 65535) false UESpecificInformationIndicationProtocolExtensions_Entry
/-- examples/tests/11-ranap.rs:12230-12235 -/
def UESpecificInformationIndicationProtocolIEs_EntryValue : Ty := .openType (.cons 118 false UESBI_Iu .nil)
/-- examples/tests/11-ranap.rs:12237-12244 -/
def UESpecificInformationIndicationProtocolIEs_Entry : Ty := .sequence false 0 (.required true ProtocolIE_ID (.required false Criticality (.required false UESpecificInformationIndicationProtocolIEs_EntryValue .nil)))
/-- examples/tests/11-ranap.rs:12246-12255 -/
def UESpecificInformationIndicationProtocolIEs : Ty := .sequenceOf (some 0) (some 65535) false UESpecificInformationIndicationProtocolIEs_Entry
/-- examples/tests/11-ranap.rs:4354-4360 -/
def UESpecificInformationIndication : Ty := .sequence true 1 (.required false UESpecificInformationIndicationProtocolIEs (.optional 0 UESpecificInformationIndicationProtocolExtensions .nil))
/-- examples/tests/11-ranap.rs:11701-11703 -/
def SecurityModeCommandProtocolExtensions_Entry : Ty := .sequence false 0 .nil
/-- examples/tests/11-ranap.rs:11705-11714 -/
def SecurityModeCommandProtocolExtensions : Ty := .sequenceOf (some 1) (some 65535) false SecurityModeCommandProtocolExtensions_Entry
/-- examples/tests/11-ranap.rs:1337-1339 -/
def KeyStatus : Ty := .enumerated .u8 (some 0) (some 1) true
/-- examples/tests/11-ranap.rs:6565-6567 -/
def IntegrityProtectionInformationIE_Extensions_Entry : Ty := .sequence false 0 .nil
/-- examples/tests/11-ranap.rs:6569-6578 -/
def IntegrityProtectionInformationIE_Extensions : Ty := .sequenceOf (some 1) (some 65535) false IntegrityProtectionInformationIE_Extensions_Entry
/-- examples/tests/11-ranap.rs:1256-1263 -/
def IntegrityProtectionKey : Ty := .bitstring (some 128) (some 128) false
/-- examples/tests/11-ranap.rs:2287-2289 -/
def PermittedIntegrityProtectionAlgorithms : Ty := .sequenceOf (some 1) (some 16) false IntegrityProtectionAlgorithm
/-- examples/tests/11-ranap.rs:1247-1254 -/
def IntegrityProtectionInformation : Ty := .sequence false 1 (.required false PermittedIntegrityProtectionAlgorithms (.required false IntegrityProtectionKey (.optional 0 IntegrityProtectionInformationIE_Extensions .nil)))
/-- examples/tests/11-ranap.rs:11672-11681 -/
def SecurityModeCommandProtocolIEs_EntryValue : Ty := .openType (.cons 11 false EncryptionInformation (.cons 12 false IntegrityProtectionInformation (.cons 75 false KeyStatus .nil)))
/-- examples/tests/11-ranap.rs:11683-11690 -/
def SecurityModeCommandProtocolIEs_Entry : Ty := .sequence false 0 (.required true ProtocolIE_ID (.required false Criticality (.required false SecurityModeCommandProtocolIEs_EntryValue .nil)))
/-- examples/tests/11-ranap.rs:11692-11699 -/
def SecurityModeCommandProtocolIEs : Ty := .sequenceOf (some 0) (some 65535) false SecurityModeCommandProtocolIEs_Entry
/-- examples/tests/11-ranap.rs:3803-3809 -/
def SecurityModeCommand : Ty := .sequence true 1 (.required false SecurityModeCommandProtocolIEs (.optional 0 SecurityModeCommandProtocolExtensions .nil))
/-- examples/tests/11-ranap.rs:11589-11591 -/
def SRVCC_CSKeysRequestProtocolExtensions_Entry : Ty := .sequence false 0 .nil
/-- examples/tests/11-ranap.rs:11593-11602 -/
def SRVCC_CSKeysRequestProtocolExtensions : Ty := .sequenceOf (some 1) (some 65535) false SRVCC_CSKeysRequestProtocolExtensions_Entry
/-- examples/tests/11-ranap.rs:11576-11578 -/
def SRVCC_CSKeysRequestProtocolIEs_Entry : Ty := .sequence false 0 .nil
/-- examples/tests/11-ranap.rs:11580-11587 -/
def SRVCC_CSKeysRequestProtocolIEs : Ty := .sequenceOf (some 0) (some 65535) false SRVCC_CSKeysRequestProtocolIEs_Entry
/-- examples/tests/11-ranap.rs:3757-3763 -/
def SRVCC_CSKeysRequest : Ty := .sequence true 1 (.required false SRVCC_CSKeysRequestProtocolIEs (.optional 0 SRVCC_CSKeysRequestProtocolExtensions .nil))
/-- examples/tests/11-ranap.rs:11561-11563 -/
def SRNS_DataForwardCommandProtocolExtensions_Entry : Ty := .sequence false 0 .nil
/-- examples/tests/11-ranap.rs:11565-11574 -/
def SRNS_DataForwardCommandProtocolExtensions : Ty := .sequenceOf (some 1) (some 65535) false SRNS_DataForwardCommandProtocolExtensions_Entry
/-- examples/tests/11-ranap.rs:8751-8758 -/
def RAB_DataForwardingItemIE_Extensions_EntryExtensionValue : Ty := .openType (.cons 13 false IuTransportAssociation (.cons 67 false TransportLayerAddress .nil))
/-- examples/tests/11-ranap.rs:8760-8767 -/
def RAB_DataForwardingItemIE_Extensions_Entry : Ty := .sequence false 0 (.required true ProtocolExtensionID (.required false Criticality (.required false RAB_DataForwardingItemIE_Extensions_EntryExtensionValue .nil)))
/-- examples/tests/11-ranap.rs:8769-8776 -/
def RAB_DataForwardingItemIE_Extensions : Ty := .sequenceOf (some 1) (some 65535) false RAB_DataForwardingItemIE_Extensions_Entry
/-- examples/tests/11-ranap.rs:2497-2505 -/
def RAB_DataForwardingItem : Ty := .sequence true 1 (.required false RAB_ID (.required false TransportLayerAddress (.required false IuTransportAssociation (.optional 0 RAB_DataForwardingItemIE_Extensions .nil))))
/-- examples/tests/11-ranap.rs:8793-8798 -/
def RAB_DataForwardingList_Entry_EntryValue : Ty := .openType (.cons 26 false RAB_DataForwardingItem .nil)
/-- examples/tests/11-ranap.rs:8800-8807 -/
def RAB_DataForwardingList_Entry_Entry : Ty := .sequence false 0 (.required true ProtocolIE_ID (.required false Criticality (.required false RAB_DataForwardingList_Entry_EntryValue .nil)))
/-- examples/tests/11-ranap.rs:8809-8816 -/
def RAB_DataForwardingList_Entry : Ty := .sequenceOf (some 0) (some 65535) false RAB_DataForwardingList_Entry_Entry
/-- examples/tests/11-ranap.rs:2515-2522 -/
def RAB_DataForwardingList : Ty := .sequenceOf (some 1) (some 256) false RAB_DataForwardingList_Entry
/-- examples/tests/11-ranap.rs:11536-11541 -/
def SRNS_DataForwardCommandProtocolIEs_EntryValue : Ty := .openType (.cons 28 false RAB_DataForwardingList .nil)
/-- examples/tests/11-ranap.rs:11543-11550 -/
def SRNS_DataForwardCommandProtocolIEs_Entry : Ty := .sequence false 0 (.required true ProtocolIE_ID (.required false Criticality (.required false SRNS_DataForwardCommandProtocolIEs_EntryValue .nil)))
/-- examples/tests/11-ranap.rs:11552-11559 -/
def SRNS_DataForwardCommandProtocolIEs : Ty := .sequenceOf (some 0) (some 65535) false SRNS_DataForwardCommandProtocolIEs_Entry
/-- examples/tests/11-ranap.rs:3749-3755 -/
def SRNS_DataForwardCommand : Ty := .sequence true 1 (.required false SRNS_DataForwardCommandProtocolIEs (.optional 0 SRNS_DataForwardCommandProtocolExtensions .nil))
/-- examples/tests/11-ranap.rs:3171-3173 -/
def RAT_Type : Ty := .enumerated .u8 (some 0) (some 1) true
/-- examples/tests/11-ranap.rs:11465-11470 -/
def SRNS_ContextRequestProtocolExtensions_EntryExtensionValue : Ty := .openType (.cons 167 false RAT_Type .nil)
/-- examples/tests/11-ranap.rs:11472-11479 -/
def SRNS_ContextRequestProtocolExtensions_Entry : Ty := .sequence false 0 (.required true ProtocolExtensionID (.required false Criticality (.required false SRNS_ContextRequestProtocolExtensions_EntryExtensionValue .nil)))
/-- examples/tests/11-ranap.rs:11481-11490 -/
def SRNS_ContextRequestProtocolExtensions : Ty := .sequenceOf (some 1) (some 65535) false SRNS_ContextRequestProtocolExtensions_Entry
/-- examples/tests/11-ranap.rs:8778-8780 -/
def RAB_DataForwardingItem_SRNS_CtxReqIE_Extensions_Entry : Ty := .sequence false 0 .nil
/-- examples/tests/11-ranap.rs:8782-8791 -/
def RAB_DataForwardingItem_SRNS_CtxReqIE_Extensions : Ty := .sequenceOf (some 1) (some 65535) false RAB_DataForwardingItem_SRNS_CtxReqIE_Extensions_Entry
/-- examples/tests/11-ranap.rs:2507-2513 -/
def RAB_DataForwardingItem_SRNS_CtxReq : Ty := .sequence true 1 (.required false RAB_ID (.optional 0 RAB_DataForwardingItem_SRNS_CtxReqIE_Extensions .nil))
/-- examples/tests/11-ranap.rs:8818-8823 -/
def RAB_DataForwardingList_SRNS_CtxReq_Entry_EntryValue : Ty := .openType (.cons 27 false RAB_DataForwardingItem_SRNS_CtxReq .nil)
/-- examples/tests/11-ranap.rs:8825-8832 -/
def RAB_DataForwardingList_SRNS_CtxReq_Entry_Entry : Ty := .sequence false 0 (.required true ProtocolIE_ID (.required false Criticality (.required false RAB_DataForwardingList_SRNS_CtxReq_Entry_EntryValue .nil)))
/-- examples/tests/11-ranap.rs:8834-8843 -/
def RAB_DataForwardingList_SRNS_CtxReq_Entry : Ty := .sequenceOf (some 0) (some 65535) false RAB_DataForwardingList_SRNS_CtxReq_Entry_Entry
/-- examples/tests/11-ranap.rs:2524-2531 -/
def RAB_DataForwardingList_SRNS_CtxReq : Ty := .sequenceOf (some 1) (some 256) false RAB_DataForwardingList_SRNS_CtxReq_Entry
/-- examples/tests/11-ranap.rs:11440-11445 -/
def SRNS_ContextRequestProtocolIEs_EntryValue : Ty := .openType (.cons 29 false RAB_DataForwardingList_SRNS_CtxReq .nil)
/-- examples/tests/11-ranap.rs:11447-11454 -/
def SRNS_ContextRequestProtocolIEs_Entry : Ty := .sequence false 0 (.required true ProtocolIE_ID (.required false Criticality (.required false SRNS_ContextRequestProtocolIEs_EntryValue .nil)))
/-- examples/tests/11-ranap.rs:11456-11463 -/
def SRNS_ContextRequestProtocolIEs : Ty := .sequenceOf (some 0) (some 65535) false SRNS_ContextRequestProtocolIEs_Entry
/-- examples/tests/11-ranap.rs:3733-3739 -/
def SRNS_ContextRequest : Ty := .sequence true 1 (.required false SRNS_ContextRequestProtocolIEs (.optional 0 SRNS_ContextRequestProtocolExtensions .nil))
/-- examples/tests/11-ranap.rs:11120-11127 -/
def ResetResourceProtocolExtensions_EntryExtensionValue : Ty := .openType (.cons 171 false ExtendedRNC_ID (.cons 96 false GlobalCN_ID .nil))
/-- examples/tests/11-ranap.rs:11129-11136 -/
def ResetResourceProtocolExtensions_Entry : Ty := .sequence false 0 (.required true ProtocolExtensionID (.required false Criticality (.required false ResetResourceProtocolExtensions_EntryExtensionValue .nil)))
/-- examples/tests/11-ranap.rs:11138-11145 -/
def ResetResourceProtocolExtensions : Ty := .sequenceOf (some 1) (some 65535) false ResetResourceProtocolExtensions_Entry
/-- examples/tests/11-ranap.rs:11257-11262 -/
def ResetResourceItemIE_Extensions_EntryExtensionValue : Ty := .openType (.cons 282 false IuSignallingConnectionIdentifier .nil)
/-- examples/tests/11-ranap.rs:11264-11271 -/
def ResetResourceItemIE_Extensions_Entry : Ty := .sequence false 0 (.required true ProtocolExtensionID (.required false Criticality (.required false ResetResourceItemIE_Extensions_EntryExtensionValue .nil)))
/-- examples/tests/11-ranap.rs:11273-11280 -/
def ResetResourceItemIE_Extensions : Ty := .sequenceOf (some 1) (some 65535) false ResetResourceItemIE_Extensions_Entry
/-- examples/tests/11-ranap.rs:3618-3624 -/
def ResetResourceItem : Ty := .sequence true 1 (.required false IuSignallingConnectionIdentifier (.optional 0 ResetResourceItemIE_Extensions .nil))
/-- examples/tests/11-ranap.rs:11282-11287 -/
def ResetResourceList_Entry_EntryValue : Ty := .openType (.cons 78 false ResetResourceItem .nil)
/-- examples/tests/11-ranap.rs:11289-11296 -/
def ResetResourceList_Entry_Entry : Ty := .sequence false 0 (.required true ProtocolIE_ID (.required false Criticality (.required false ResetResourceList_Entry_EntryValue .nil)))
/-- examples/tests/11-ranap.rs:11298-11305 -/
def ResetResourceList_Entry : Ty := .sequenceOf (some 0) (some 65535) false ResetResourceList_Entry_Entry
/-- examples/tests/11-ranap.rs:3626-3633 -/
def ResetResourceList : Ty := .sequenceOf (some 1) (some 250) false ResetResourceList_Entry
/-- examples/tests/11-ranap.rs:11089-11100 -/
def ResetResourceProtocolIEs_EntryValue : Ty := .openType (.cons 3 false CN_DomainIndicator (.cons 4 false Cause (.cons 86 false GlobalRNC_ID (.cons 77 false ResetResourceList .nil))))
/-- examples/tests/11-ranap.rs:11102-11109 -/
def ResetResourceProtocolIEs_Entry : Ty := .sequence false 0 (.required true ProtocolIE_ID (.required false Criticality (.required false ResetResourceProtocolIEs_EntryValue .nil)))
/-- examples/tests/11-ranap.rs:11111-11118 -/
def ResetResourceProtocolIEs : Ty := .sequenceOf (some 0) (some 65535) false ResetResourceProtocolIEs_Entry
/-- examples/tests/11-ranap.rs:3585-3591 -/
def ResetResource : Ty := .sequence true 1 (.required false ResetResourceProtocolIEs (.optional 0 ResetResourceProtocolExtensions .nil))
/-- examples/tests/11-ranap.rs:11006-11013 -/
def ResetProtocolExtensions_EntryExtensionValue : Ty := .openType (.cons 171 false ExtendedRNC_ID (.cons 96 false GlobalCN_ID .nil))
/-- examples/tests/11-ranap.rs:11015-11022 -/
def ResetProtocolExtensions_Entry : Ty := .sequence false 0 (.required true ProtocolExtensionID (.required false Criticality (.required false ResetProtocolExtensions_EntryExtensionValue .nil)))
/-- examples/tests/11-ranap.rs:11024-11031 -/
def ResetProtocolExtensions : Ty := .sequenceOf (some 1) (some 65535) false ResetProtocolExtensions_Entry
/-- examples/tests/11-ranap.rs:10977-10986 -/
def ResetProtocolIEs_EntryValue : Ty := .openType (.cons 3 false CN_DomainIndicator (.cons 4 false Cause (.cons 86 false GlobalRNC_ID .nil)))
/-- examples/tests/11-ranap.rs:10988-10995 -/
def ResetProtocolIEs_Entry : Ty := .sequence false 0 (.required true ProtocolIE_ID (.required false Criticality (.required false ResetProtocolIEs_EntryValue .nil)))
/-- examples/tests/11-ranap.rs:10997-11004 -/
def ResetProtocolIEs : Ty := .sequenceOf (some 0) (some 65535) false ResetProtocolIEs_Entry
/-- examples/tests/11-ranap.rs:3569-3575 -/
def Reset : Ty := .sequence true 1 (.required false ResetProtocolIEs (.optional 0 ResetProtocolExtensions .nil))
/-- examples/tests/11-ranap.rs:10964-10966 -/
def RerouteNASRequestProtocolExtensions_Entry : Ty := .sequence false 0 .nil
/-- examples/tests/11-ranap.rs:10968-10975 -/
def RerouteNASRequestProtocolExtensions : Ty := .sequenceOf (some 1) (some 65535) false RerouteNASRequestProtocolExtensions_Entry
/-- examples/tests/11-ranap.rs:2179-2181 -/
def P_TMSI : Ty := .octetstring (some 4) (some 4) false
/-- examples/tests/11-ranap.rs:10935-10944 -/
def RerouteNASRequestProtocolIEs_EntryValue : Ty := .openType (.cons 287 false P_TMSI (.cons 286 false SGSN_Group_Identity (.cons 290 false UE_Usage_Type .nil)))
/-- examples/tests/11-ranap.rs:10946-10953 -/
def RerouteNASRequestProtocolIEs_Entry : Ty := .sequence false 0 (.required true ProtocolIE_ID (.required false Criticality (.required false RerouteNASRequestProtocolIEs_EntryValue .nil)))
/-- examples/tests/11-ranap.rs:10955-10962 -/
def RerouteNASRequestProtocolIEs : Ty := .sequenceOf (some 0) (some 65535) false RerouteNASRequestProtocolIEs_Entry
/-- examples/tests/11-ranap.rs:3561-3567 -/
def RerouteNASRequest : Ty := .sequence true 1 (.required false RerouteNASRequestProtocolIEs (.optional 0 RerouteNASRequestProtocolExtensions .nil))
/-- examples/tests/11-ranap.rs:4277-4288 -/
def UE_Application_Layer_Measurement_Configuration_For_Relocation : Ty := .sequence true 2 (.required false AreaScopeForUEApplicationLayerMeasurementConfiguration (.required false TraceReference (.optional 0 TracePropagationParameters (.optional 1 TransportLayerAddress (.required false ServiceType .nil)))))
/-- examples/tests/11-ranap.rs:10697-10726 -/
def RelocationRequestProtocolExtensions_EntryExtensionValue : Ty := .openType (.cons 261 false PLMNidentity (.cons 133 false CNMBMSLinkingInformation (.cons 203 false CSG_Id (.cons 234 false CSG_Membership_Status (.cons 96 false GlobalCN_ID (.cons 239 false MSISDN (.cons 289 false PowerSavingIndicator (.cons 105 false SNA_Access_Information (.cons 127 false PLMNidentity (.cons 233 false UE_AggregateMaximumBitRate (.cons 293 false UE_Application_Layer_Measurement_Configuration_For_Relocation (.cons 118 false UESBI_Iu .nil))))))))))))
/-- examples/tests/11-ranap.rs:10728-10735 -/
def RelocationRequestProtocolExtensions_Entry : Ty := .sequence false 0 (.required true ProtocolExtensionID (.required false Criticality (.required false RelocationRequestProtocolExtensions_EntryExtensionValue .nil)))
/-- examples/tests/11-ranap.rs:10737-10744 -/
def RelocationRequestProtocolExtensions : Ty := .sequenceOf (some 1) (some 65535) false RelocationRequestProtocolExtensions_Entry
/-- examples/tests/11-ranap.rs:4290-4292 -/
def UE_History_Information : Ty := .octetstring none none false
/-- examples/tests/11-ranap.rs:12139-12141 -/
def TraceRecordingSessionInformationIE_Extensions_Entry : Ty := .sequence false 0 .nil
/-- examples/tests/11-ranap.rs:12143-12152 -/
def TraceRecordingSessionInformationIE_Extensions : Ty := .sequenceOf (some 1) (some 65535) false TraceRecordingSessionInformationIE_Extensions_Entry
/-- examples/tests/11-ranap.rs:4158-4165 -/
def TraceRecordingSessionInformation : Ty := .sequence true 1 (.required false TraceReference (.required false TraceRecordingSessionReference (.optional 0 TraceRecordingSessionInformationIE_Extensions .nil)))
/-- examples/tests/11-ranap.rs:3796-3798 -/
def SRVCCSource : Ty := .enumerated .u8 (some 0) (some 0) true
/-- examples/tests/11-ranap.rs:11659-11661 -/
def SRVCC_InformationIE_Extensions_Entry : Ty := .sequence false 0 .nil
/-- examples/tests/11-ranap.rs:11663-11670 -/
def SRVCC_InformationIE_Extensions : Ty := .sequenceOf (some 1) (some 65535) false SRVCC_InformationIE_Extensions_Entry
/-- examples/tests/11-ranap.rs:11650-11657 -/
def BIT_STRING_61 : Ty := .bitstring (some 128) (some 128) false
/-- examples/tests/11-ranap.rs:3781-3787 -/
def SRVCC_Information : Ty := .sequence true 1 (.required false BIT_STRING_61 (.optional 0 SRVCC_InformationIE_Extensions .nil))
/-- examples/tests/11-ranap.rs:11427-11429 -/
def SRB_TrCH_MappingItemIE_Extensions_Entry : Ty := .sequence false 0 .nil
/-- examples/tests/11-ranap.rs:11431-11438 -/
def SRB_TrCH_MappingItemIE_Extensions : Ty := .sequenceOf (some 1) (some 65535) false SRB_TrCH_MappingItemIE_Extensions_Entry
/-- examples/tests/11-ranap.rs:12084-12091 -/
def TrCH_IDIE_Extensions_EntryExtensionValue : Ty := .openType (.cons 160 false E_DCH_MAC_d_Flow_ID (.cons 117 false HS_DSCH_MAC_d_Flow_ID .nil))
/-- examples/tests/11-ranap.rs:12093-12100 -/
def TrCH_IDIE_Extensions_Entry : Ty := .sequence false 0 (.required true ProtocolExtensionID (.required false Criticality (.required false TrCH_IDIE_Extensions_EntryExtensionValue .nil)))
/-- examples/tests/11-ranap.rs:12102-12109 -/
def TrCH_IDIE_Extensions : Ty := .sequenceOf (some 1) (some 65535) false TrCH_IDIE_Extensions_Entry
/-- examples/tests/11-ranap.rs:4391-4393 -/
def USCH_ID : Ty := .integer .u8 (some 0) (some 255) false
/-- examples/tests/11-ranap.rs:4110-4121 -/
def TrCH_ID : Ty := .sequence true 4 (.optional 0 DCH_ID (.optional 1 DSCH_ID (.optional 2 USCH_ID (.optional 3 TrCH_IDIE_Extensions .nil))))
/-- examples/tests/11-ranap.rs:3716-3718 -/
def SRB_ID : Ty := .integer .u8 (some 1) (some 32) false
/-- examples/tests/11-ranap.rs:3724-3731 -/
def SRB_TrCH_MappingItem : Ty := .sequence true 1 (.required false SRB_ID (.required false TrCH_ID (.optional 0 SRB_TrCH_MappingItemIE_Extensions .nil)))
/-- examples/tests/11-ranap.rs:3720-3722 -/
def SRB_TrCH_Mapping : Ty := .sequenceOf (some 1) (some 8) false SRB_TrCH_MappingItem
/-- examples/tests/11-ranap.rs:1781-1783 -/
def MBMSLinkingInformation : Ty := .enumerated .u8 (some 0) (some 0) true
/-- examples/tests/11-ranap.rs:11842-11875 -/
def SourceRNC_ToTargetRNC_TransparentContainerIE_Extensions_EntryExtensionValue : Ty := .openType (.cons 237 false CSFB_Information (.cons 121 false CellLoadInformationGroup (.cons 243 false IRAT_Measurement_Configuration (.cons 277 false PLMNidentity (.cons 156 false MBMSLinkingInformation (.cons 249 false Management_Based_MDT_Allowed (.cons 263 false MDT_PLMN_List (.cons 230 false RAB_ID (.cons 98 false SRB_TrCH_Mapping (.cons 227 false SRVCC_Information (.cons 296 false SRVCCSource (.cons 202 false SubscriberProfileIDforRFP (.cons 124 false TraceRecordingSessionInformation (.cons 200 false UE_History_Information (.cons 187 false D_RNTI .nil)))))))))))))))
/-- examples/tests/11-ranap.rs:11877-11885 -/
def SourceRNC_ToTargetRNC_TransparentContainerIE_Extensions_Entry : Ty := .sequence false 0 (.required true ProtocolExtensionID (.required false Criticality (.required false SourceRNC_ToTargetRNC_TransparentContainerIE_Extensions_EntryExtensionValue .nil)))
/-- examples/tests/11-ranap.rs:11887-11896 -/
def SourceRNC_ToTargetRNC_TransparentContainerIE_Extensions : Ty := .sequenceOf (some 1) (some 65535) false SourceRNC_ToTargetRNC_TransparentContainerIE_Extensions_Entry
/-- examples/tests/11-ranap.rs:9871-9876 -/
def RAB_TrCH_MappingItemIE_Extensions_EntryExtensionValue : Ty := .openType (.cons 3 false CN_DomainIndicator .nil)
/-- examples/tests/11-ranap.rs:9878-9885 -/
def RAB_TrCH_MappingItemIE_Extensions_Entry : Ty := .sequence false 0 (.required true ProtocolExtensionID (.required false Criticality (.required false RAB_TrCH_MappingItemIE_Extensions_EntryExtensionValue .nil)))
/-- examples/tests/11-ranap.rs:9887-9894 -/
def RAB_TrCH_MappingItemIE_Extensions : Ty := .sequenceOf (some 1) (some 65535) false RAB_TrCH_MappingItemIE_Extensions_Entry
/-- examples/tests/11-ranap.rs:4123-4125 -/
def TrCH_ID_List : Ty := .sequenceOf (some 1) (some 7) false TrCH_ID
/-- examples/tests/11-ranap.rs:3051-3058 -/
def RAB_TrCH_MappingItem : Ty := .sequence true 1 (.required false RAB_ID (.required false TrCH_ID_List (.optional 0 RAB_TrCH_MappingItemIE_Extensions .nil)))
/-- examples/tests/11-ranap.rs:3042-3049 -/
def RAB_TrCH_Mapping : Ty := .sequenceOf (some 1) (some 256) false RAB_TrCH_MappingItem
/-- examples/tests/11-ranap.rs:3413-3415 -/
def RelocationType : Ty := .enumerated .u8 (some 0) (some 1) true
/-- examples/tests/11-ranap.rs:2112-2114 -/
def NumberOfIuInstances : Ty := .integer .u8 (some 1) (some 2) false
/-- examples/tests/11-ranap.rs:3905-3931 -/
def SourceRNC_ToTargetRNC_TransparentContainer : Ty := .sequence true 10 (.required false RRC_Container (.required false NumberOfIuInstances (.required false RelocationType (.optional 0 ChosenIntegrityProtectionAlgorithm (.optional 1 IntegrityProtectionKey (.optional 2 ChosenEncryptionAlgorithm (.optional 3 EncryptionKey (.optional 4 ChosenEncryptionAlgorithm (.optional 5 ChosenEncryptionAlgorithm (.optional 6 D_RNTI (.optional 7 TargetCellId (.optional 8 RAB_TrCH_Mapping (.optional 9 SourceRNC_ToTargetRNC_TransparentContainerIE_Extensions .nil)))))))))))))
/-- examples/tests/11-ranap.rs:2194-2196 -/
def PDP_Type_extension : Ty := .enumerated .u8 (some 0) (some 0) true
/-- examples/tests/11-ranap.rs:2205-2207 -/
def PDP_TypeInformation_extension : Ty := .sequenceOf (some 1) (some 2) false PDP_Type_extension
/-- examples/tests/11-ranap.rs:9461-9474 -/
def RAB_SetupItem_RelocReqIE_Extensions_EntryExtensionValue : Ty := .openType (.cons 89 false Alt_RAB_Parameters (.cons 231 false E_UTRAN_Service_Handover (.cons 107 false GERAN_BSC_Container (.cons 240 false Offload_RAB_Parameters (.cons 238 false PDP_TypeInformation_extension .nil)))))
/-- examples/tests/11-ranap.rs:9476-9483 -/
def RAB_SetupItem_RelocReqIE_Extensions_Entry : Ty := .sequence false 0 (.required true ProtocolExtensionID (.required false Criticality (.required false RAB_SetupItem_RelocReqIE_Extensions_EntryExtensionValue .nil)))
/-- examples/tests/11-ranap.rs:9485-9492 -/
def RAB_SetupItem_RelocReqIE_Extensions : Ty := .sequenceOf (some 1) (some 65535) false RAB_SetupItem_RelocReqIE_Extensions_Entry
/-- examples/tests/11-ranap.rs:3827-3829 -/
def Service_Handover : Ty := .enumerated .u8 (some 0) (some 2) true
/-- examples/tests/11-ranap.rs:2183-2185 -/
def PDP_Type : Ty := .enumerated .u8 (some 0) (some 4) true
/-- examples/tests/11-ranap.rs:2201-2203 -/
def PDP_TypeInformation : Ty := .sequenceOf (some 1) (some 2) false PDP_Type
/-- examples/tests/11-ranap.rs:2071-2073 -/
def NAS_SynchronisationIndicator : Ty := .bitstring (some 4) (some 4) false
/-- examples/tests/11-ranap.rs:2859-2877 -/
def RAB_SetupItem_RelocReq : Ty := .sequence true 5 (.required false RAB_ID (.optional 0 NAS_SynchronisationIndicator (.required false RAB_Parameters (.optional 1 DataVolumeReportingIndication (.optional 2 PDP_TypeInformation (.required false UserPlaneInformation (.required false TransportLayerAddress (.required false IuTransportAssociation (.optional 3 Service_Handover (.optional 4 RAB_SetupItem_RelocReqIE_Extensions .nil))))))))))
/-- examples/tests/11-ranap.rs:9629-9634 -/
def RAB_SetupList_RelocReq_Entry_EntryValue : Ty := .openType (.cons 47 false RAB_SetupItem_RelocReq .nil)
/-- examples/tests/11-ranap.rs:9636-9643 -/
def RAB_SetupList_RelocReq_Entry_Entry : Ty := .sequence false 0 (.required true ProtocolIE_ID (.required false Criticality (.required false RAB_SetupList_RelocReq_Entry_EntryValue .nil)))
/-- examples/tests/11-ranap.rs:9645-9652 -/
def RAB_SetupList_RelocReq_Entry : Ty := .sequenceOf (some 0) (some 65535) false RAB_SetupList_RelocReq_Entry_Entry
/-- examples/tests/11-ranap.rs:2931-2938 -/
def RAB_SetupList_RelocReq : Ty := .sequenceOf (some 1) (some 256) false RAB_SetupList_RelocReq_Entry
/-- examples/tests/11-ranap.rs:10658-10677 -/
def RelocationRequestProtocolIEs_EntryValue : Ty := .openType (.cons 3 false CN_DomainIndicator (.cons 4 false Cause (.cons 11 false EncryptionInformation (.cons 12 false IntegrityProtectionInformation (.cons 79 false IuSignallingConnectionIdentifier (.cons 23 false PermanentNAS_UE_ID (.cons 49 false RAB_SetupList_RelocReq (.cons 61 false SourceRNC_ToTargetRNC_TransparentContainer .nil))))))))
/-- examples/tests/11-ranap.rs:10679-10686 -/
def RelocationRequestProtocolIEs_Entry : Ty := .sequence false 0 (.required true ProtocolIE_ID (.required false Criticality (.required false RelocationRequestProtocolIEs_EntryValue .nil)))
/-- examples/tests/11-ranap.rs:10688-10695 -/
def RelocationRequestProtocolIEs : Ty := .sequenceOf (some 0) (some 65535) false RelocationRequestProtocolIEs_Entry
/-- examples/tests/11-ranap.rs:3381-3387 -/
def RelocationRequest : Ty := .sequence true 1 (.required false RelocationRequestProtocolIEs (.optional 0 RelocationRequestProtocolExtensions .nil))
/-- examples/tests/11-ranap.rs:3874-3876 -/
def SourceBSS_ToTargetBSS_TransparentContainer : Ty := .octetstring none none false
/-- examples/tests/11-ranap.rs:3773-3775 -/
def SRVCC_HO_Indication : Ty := .enumerated .u8 (some 0) (some 1) true
/-- examples/tests/11-ranap.rs:3258-3260 -/
def RSRVCC_HO_Indication : Ty := .enumerated .u8 (some 0) (some 0) true
/-- examples/tests/11-ranap.rs:10851-10870 -/
def RelocationRequiredProtocolExtensions_EntryExtensionValue : Ty := .openType (.cons 203 false CSG_Id (.cons 235 false Cell_Access_Mode (.cons 108 false GERAN_Classmark (.cons 259 false RSRVCC_HO_Indication (.cons 226 false SRVCC_HO_Indication (.cons 161 false SourceBSS_ToTargetBSS_TransparentContainer (.cons 293 false UE_Application_Layer_Measurement_Configuration_For_Relocation .nil)))))))
/-- examples/tests/11-ranap.rs:10872-10879 -/
def RelocationRequiredProtocolExtensions_Entry : Ty := .sequence false 0 (.required true ProtocolExtensionID (.required false Criticality (.required false RelocationRequiredProtocolExtensions_EntryExtensionValue .nil)))
/-- examples/tests/11-ranap.rs:10881-10890 -/
def RelocationRequiredProtocolExtensions : Ty := .sequenceOf (some 1) (some 65535) false RelocationRequiredProtocolExtensions_Entry
/-- examples/tests/11-ranap.rs:4049-4058 -/
def TargetID : Ty := .choice 0 1 true (.cons 0 false TargetRNC_ID (.cons 1 false CGI (.cons 0 true TargetENB_ID .nil)))
/-- examples/tests/11-ranap.rs:11817-11822 -/
def SourceRNC_IDIE_Extensions_EntryExtensionValue : Ty := .openType (.cons 171 false ExtendedRNC_ID .nil)
/-- examples/tests/11-ranap.rs:11824-11831 -/
def SourceRNC_IDIE_Extensions_Entry : Ty := .sequence false 0 (.required true ProtocolExtensionID (.required false Criticality (.required false SourceRNC_IDIE_Extensions_EntryExtensionValue .nil)))
/-- examples/tests/11-ranap.rs:11833-11840 -/
def SourceRNC_IDIE_Extensions : Ty := .sequenceOf (some 1) (some 65535) false SourceRNC_IDIE_Extensions_Entry
/-- examples/tests/11-ranap.rs:3896-3903 -/
def SourceRNC_ID : Ty := .sequence false 1 (.required false PLMNidentity (.required false RNC_ID (.optional 0 SourceRNC_IDIE_Extensions .nil)))
/-- examples/tests/11-ranap.rs:3887-3894 -/
def SourceID : Ty := .choice 0 1 true (.cons 0 false SourceRNC_ID (.cons 1 false SAI .nil))
/-- examples/tests/11-ranap.rs:3870-3872 -/
def Source_ToTarget_TransparentContainer : Ty := .octetstring none none false
/-- examples/tests/11-ranap.rs:2151-2153 -/
def OldBSS_ToNewBSS_Information : Ty := .octetstring none none false
/-- examples/tests/11-ranap.rs:10812-10831 -/
def RelocationRequiredProtocolIEs_EntryValue : Ty := .openType (.cons 4 false Cause (.cons 7 false ClassmarkInformation2 (.cons 8 false ClassmarkInformation3 (.cons 20 false OldBSS_ToNewBSS_Information (.cons 56 false RelocationType (.cons 61 false Source_ToTarget_TransparentContainer (.cons 60 false SourceID (.cons 62 false TargetID .nil))))))))
/-- examples/tests/11-ranap.rs:10833-10840 -/
def RelocationRequiredProtocolIEs_Entry : Ty := .sequence false 0 (.required true ProtocolIE_ID (.required false Criticality (.required false RelocationRequiredProtocolIEs_EntryValue .nil)))
/-- examples/tests/11-ranap.rs:10842-10849 -/
def RelocationRequiredProtocolIEs : Ty := .sequenceOf (some 0) (some 65535) false RelocationRequiredProtocolIEs_Entry
/-- examples/tests/11-ranap.rs:3397-3403 -/
def RelocationRequired : Ty := .sequence true 1 (.required false RelocationRequiredProtocolIEs (.optional 0 RelocationRequiredProtocolExtensions .nil))
/-- examples/tests/11-ranap.rs:10535-10537 -/
def RelocationDetectProtocolExtensions_Entry : Ty := .sequence false 0 .nil
/-- examples/tests/11-ranap.rs:10539-10546 -/
def RelocationDetectProtocolExtensions : Ty := .sequenceOf (some 1) (some 65535) false RelocationDetectProtocolExtensions_Entry
/-- examples/tests/11-ranap.rs:10522-10524 -/
def RelocationDetectProtocolIEs_Entry : Ty := .sequence false 0 .nil
/-- examples/tests/11-ranap.rs:10526-10533 -/
def RelocationDetectProtocolIEs : Ty := .sequenceOf (some 0) (some 65535) false RelocationDetectProtocolIEs_Entry
/-- examples/tests/11-ranap.rs:3357-3363 -/
def RelocationDetect : Ty := .sequence true 1 (.required false RelocationDetectProtocolIEs (.optional 0 RelocationDetectProtocolExtensions .nil))
/-- examples/tests/11-ranap.rs:10491-10500 -/
def RelocationCompleteProtocolExtensions_EntryExtensionValue : Ty := .openType (.cons 250 false HigherBitratesThan16MbpsFlag (.cons 275 false LHN_ID (.cons 262 false TunnelInformation .nil)))
/-- examples/tests/11-ranap.rs:10502-10509 -/
def RelocationCompleteProtocolExtensions_Entry : Ty := .sequence false 0 (.required true ProtocolExtensionID (.required false Criticality (.required false RelocationCompleteProtocolExtensions_EntryExtensionValue .nil)))
/-- examples/tests/11-ranap.rs:10511-10520 -/
def RelocationCompleteProtocolExtensions : Ty := .sequenceOf (some 1) (some 65535) false RelocationCompleteProtocolExtensions_Entry
/-- examples/tests/11-ranap.rs:10478-10480 -/
def RelocationCompleteProtocolIEs_Entry : Ty := .sequence false 0 .nil
/-- examples/tests/11-ranap.rs:10482-10489 -/
def RelocationCompleteProtocolIEs : Ty := .sequenceOf (some 0) (some 65535) false RelocationCompleteProtocolIEs_Entry
/-- examples/tests/11-ranap.rs:3349-3355 -/
def RelocationComplete : Ty := .sequence true 1 (.required false RelocationCompleteProtocolIEs (.optional 0 RelocationCompleteProtocolExtensions .nil))
/-- examples/tests/11-ranap.rs:10359-10361 -/
def RelocationCancelProtocolExtensions_Entry : Ty := .sequence false 0 .nil
/-- examples/tests/11-ranap.rs:10363-10370 -/
def RelocationCancelProtocolExtensions : Ty := .sequenceOf (some 1) (some 65535) false RelocationCancelProtocolExtensions_Entry
/-- examples/tests/11-ranap.rs:10334-10339 -/
def RelocationCancelProtocolIEs_EntryValue : Ty := .openType (.cons 4 false Cause .nil)
/-- examples/tests/11-ranap.rs:10341-10348 -/
def RelocationCancelProtocolIEs_Entry : Ty := .sequence false 0 (.required true ProtocolIE_ID (.required false Criticality (.required false RelocationCancelProtocolIEs_EntryValue .nil)))
/-- examples/tests/11-ranap.rs:10350-10357 -/
def RelocationCancelProtocolIEs : Ty := .sequenceOf (some 0) (some 65535) false RelocationCancelProtocolIEs_Entry
/-- examples/tests/11-ranap.rs:3325-3331 -/
def RelocationCancel : Ty := .sequence true 1 (.required false RelocationCancelProtocolIEs (.optional 0 RelocationCancelProtocolExtensions .nil))
/-- examples/tests/11-ranap.rs:9921-9923 -/
def RABParametersList_EntryIE_Extensions_Entry : Ty := .sequence false 0 .nil
/-- examples/tests/11-ranap.rs:9925-9934 -/
def RABParametersList_EntryIE_Extensions : Ty := .sequenceOf (some 1) (some 65535) false RABParametersList_EntryIE_Extensions_Entry
/-- examples/tests/11-ranap.rs:4106-4108 -/
def TimingDifferenceULDL : Ty := .octetstring (some 1) (some 1) false
/-- examples/tests/11-ranap.rs:12272-12277 -/
def UPInformationIE_Extensions_EntryExtensionValue : Ty := .openType (.cons 269 false TimingDifferenceULDL .nil)
/-- examples/tests/11-ranap.rs:12279-12286 -/
def UPInformationIE_Extensions_Entry : Ty := .sequence false 0 (.required true ProtocolExtensionID (.required false Criticality (.required false UPInformationIE_Extensions_EntryExtensionValue .nil)))
/-- examples/tests/11-ranap.rs:12288-12295 -/
def UPInformationIE_Extensions : Ty := .sequenceOf (some 1) (some 65535) false UPInformationIE_Extensions_Entry
/-- examples/tests/11-ranap.rs:4387-4389 -/
def UPInitialisationFrame : Ty := .octetstring none none false
/-- examples/tests/11-ranap.rs:2209-2211 -/
def PDUType14FrameSequenceNumber : Ty := .integer .u8 (some 0) (some 3) false
/-- examples/tests/11-ranap.rs:4374-4385 -/
def UPInformation : Ty := .sequence true 1 (.required false FrameSequenceNumber (.required false FrameSequenceNumber (.required false PDUType14FrameSequenceNumber (.required false PDUType14FrameSequenceNumber (.required false DataPDUType (.required false UPInitialisationFrame (.optional 0 UPInformationIE_Extensions .nil)))))))
/-- examples/tests/11-ranap.rs:9896-9898 -/
def RABDataVolumeReport_EntryIE_Extensions_Entry : Ty := .sequence false 0 .nil
/-- examples/tests/11-ranap.rs:9900-9909 -/
def RABDataVolumeReport_EntryIE_Extensions : Ty := .sequenceOf (some 1) (some 65535) false RABDataVolumeReport_EntryIE_Extensions_Entry
/-- examples/tests/11-ranap.rs:9911-9919 -/
def RABDataVolumeReport_Entry : Ty := .sequence true 2 (.required false UnsuccessfullyTransmittedDataVolume (.optional 0 DataVolumeReference (.optional 1 RABDataVolumeReport_EntryIE_Extensions .nil)))
/-- examples/tests/11-ranap.rs:3060-3062 -/
def RABDataVolumeReport : Ty := .sequenceOf (some 1) (some 2) false RABDataVolumeReport_Entry
/-- examples/tests/11-ranap.rs:9936-9947 -/
def RABParametersList_Entry : Ty := .sequence true 3 (.required false RAB_ID (.required false CN_DomainIndicator (.optional 0 RABDataVolumeReport (.optional 1 UPInformation (.optional 2 RABParametersList_EntryIE_Extensions .nil)))))
/-- examples/tests/11-ranap.rs:3064-3071 -/
def RABParametersList : Ty := .sequenceOf (some 1) (some 256) false RABParametersList_Entry
/-- examples/tests/11-ranap.rs:10058-10075 -/
def RANAP_EnhancedRelocationInformationRequestProtocolExtensions_EntryExtensionValue : Ty := .openType (.cons 261 false PLMNidentity (.cons 203 false CSG_Id (.cons 234 false CSG_Membership_Status (.cons 11 false EncryptionInformation (.cons 12 false IntegrityProtectionInformation (.cons 248 false RABParametersList (.cons 233 false UE_AggregateMaximumBitRate .nil)))))))
/-- examples/tests/11-ranap.rs:10077-10085 -/
def RANAP_EnhancedRelocationInformationRequestProtocolExtensions_Entry : Ty := .sequence false 0 (.required true ProtocolExtensionID (.required false Criticality (.required false RANAP_EnhancedRelocationInformationRequestProtocolExtensions_EntryExtensionValue .nil)))
/-- examples/tests/11-ranap.rs:10087-10096 -/
def RANAP_EnhancedRelocationInformationRequestProtocolExtensions : Ty := .sequenceOf (some 1) (some 65535) false RANAP_EnhancedRelocationInformationRequestProtocolExtensions_Entry
/-- examples/tests/11-ranap.rs:9375-9382 -/
def RAB_SetupItem_EnhRelocInfoReqIE_Extensions_EntryExtensionValue : Ty := .openType (.cons 231 false E_UTRAN_Service_Handover (.cons 238 false PDP_TypeInformation_extension .nil))
/-- examples/tests/11-ranap.rs:9384-9391 -/
def RAB_SetupItem_EnhRelocInfoReqIE_Extensions_Entry : Ty := .sequence false 0 (.required true ProtocolExtensionID (.required false Criticality (.required false RAB_SetupItem_EnhRelocInfoReqIE_Extensions_EntryExtensionValue .nil)))
/-- examples/tests/11-ranap.rs:9393-9402 -/
def RAB_SetupItem_EnhRelocInfoReqIE_Extensions : Ty := .sequenceOf (some 1) (some 65535) false RAB_SetupItem_EnhRelocInfoReqIE_Extensions_Entry
/-- examples/tests/11-ranap.rs:11986-11988 -/
def TNLInformationEnhRelInfoReqIE_Extensions_Entry : Ty := .sequence false 0 .nil
/-- examples/tests/11-ranap.rs:11990-11999 -/
def TNLInformationEnhRelInfoReqIE_Extensions : Ty := .sequenceOf (some 1) (some 65535) false TNLInformationEnhRelInfoReqIE_Extensions_Entry
/-- examples/tests/11-ranap.rs:4009-4016 -/
def TNLInformationEnhRelInfoReq : Ty := .sequence true 1 (.required false TransportLayerAddress (.required false IuTransportAssociation (.optional 0 TNLInformationEnhRelInfoReqIE_Extensions .nil)))
/-- examples/tests/11-ranap.rs:2792-2813 -/
def RAB_SetupItem_EnhRelocInfoReq : Ty := .sequence true 7 (.required false RAB_ID (.required false CN_DomainIndicator (.required false RAB_Parameters (.optional 0 DataVolumeReportingIndication (.optional 1 PDP_TypeInformation (.required false UserPlaneInformation (.optional 2 TNLInformationEnhRelInfoReq (.optional 3 TNLInformationEnhRelInfoReq (.optional 4 Service_Handover (.optional 5 Alt_RAB_Parameters (.optional 6 RAB_SetupItem_EnhRelocInfoReqIE_Extensions .nil)))))))))))
/-- examples/tests/11-ranap.rs:9525-9530 -/
def RAB_SetupList_EnhRelocInfoReq_Entry_EntryValue : Ty := .openType (.cons 193 false RAB_SetupItem_EnhRelocInfoReq .nil)
/-- examples/tests/11-ranap.rs:9532-9539 -/
def RAB_SetupList_EnhRelocInfoReq_Entry_Entry : Ty := .sequence false 0 (.required true ProtocolIE_ID (.required false Criticality (.required false RAB_SetupList_EnhRelocInfoReq_Entry_EntryValue .nil)))
/-- examples/tests/11-ranap.rs:9541-9548 -/
def RAB_SetupList_EnhRelocInfoReq_Entry : Ty := .sequenceOf (some 0) (some 65535) false RAB_SetupList_EnhRelocInfoReq_Entry_Entry
/-- examples/tests/11-ranap.rs:2891-2898 -/
def RAB_SetupList_EnhRelocInfoReq : Ty := .sequenceOf (some 1) (some 256) false RAB_SetupList_EnhRelocInfoReq_Entry
/-- examples/tests/11-ranap.rs:10013-10036 -/
def RANAP_EnhancedRelocationInformationRequestProtocolIEs_EntryValue : Ty := .openType (.cons 133 false CNMBMSLinkingInformation (.cons 206 false GlobalCN_ID (.cons 207 false GlobalCN_ID (.cons 204 false IuSignallingConnectionIdentifier (.cons 205 false IuSignallingConnectionIdentifier (.cons 192 false RAB_SetupList_EnhRelocInfoReq (.cons 105 false SNA_Access_Information (.cons 127 false PLMNidentity (.cons 61 false SourceRNC_ToTargetRNC_TransparentContainer (.cons 118 false UESBI_Iu .nil))))))))))
/-- examples/tests/11-ranap.rs:10038-10045 -/
def RANAP_EnhancedRelocationInformationRequestProtocolIEs_Entry : Ty := .sequence false 0 (.required true ProtocolIE_ID (.required false Criticality (.required false RANAP_EnhancedRelocationInformationRequestProtocolIEs_EntryValue .nil)))
/-- examples/tests/11-ranap.rs:10047-10056 -/
def RANAP_EnhancedRelocationInformationRequestProtocolIEs : Ty := .sequenceOf (some 0) (some 65535) false RANAP_EnhancedRelocationInformationRequestProtocolIEs_Entry
/-- examples/tests/11-ranap.rs:3134-3140 -/
def RANAP_EnhancedRelocationInformationRequest : Ty := .sequence true 1 (.required false RANAP_EnhancedRelocationInformationRequestProtocolIEs (.optional 0 RANAP_EnhancedRelocationInformationRequestProtocolExtensions .nil))
/-- examples/tests/11-ranap.rs:10256-10258 -/
def RNSAPRelocationParametersIE_Extensions_Entry : Ty := .sequence false 0 .nil
/-- examples/tests/11-ranap.rs:10260-10269 -/
def RNSAPRelocationParametersIE_Extensions : Ty := .sequenceOf (some 1) (some 65535) false RNSAPRelocationParametersIE_Extensions_Entry
/-- examples/tests/11-ranap.rs:12111-12113 -/
def TraceInformationIE_Extensions_Entry : Ty := .sequence false 0 .nil
/-- examples/tests/11-ranap.rs:12115-12122 -/
def TraceInformationIE_Extensions : Ty := .sequenceOf (some 1) (some 65535) false TraceInformationIE_Extensions_Entry
/-- examples/tests/11-ranap.rs:4136-4145 -/
def TraceInformation : Ty := .sequence true 2 (.required false TraceReference (.required false UE_ID (.optional 0 TracePropagationParameters (.optional 1 TraceInformationIE_Extensions .nil))))
/-- examples/tests/11-ranap.rs:7192-7194 -/
def LocationReportingTransferInformationIE_Extensions_Entry : Ty := .sequence false 0 .nil
/-- examples/tests/11-ranap.rs:7196-7205 -/
def LocationReportingTransferInformationIE_Extensions : Ty := .sequenceOf (some 1) (some 65535) false LocationReportingTransferInformationIE_Extensions_Entry
/-- examples/tests/11-ranap.rs:8465-8467 -/
def PeriodicLocationInfoIE_Extensions_Entry : Ty := .sequence false 0 .nil
/-- examples/tests/11-ranap.rs:8469-8476 -/
def PeriodicLocationInfoIE_Extensions : Ty := .sequenceOf (some 1) (some 65535) false PeriodicLocationInfoIE_Extensions_Entry
/-- examples/tests/11-ranap.rs:8461-8463 -/
def INTEGER_47 : Ty := .integer .u32 (some 1) (some 8639999) true
/-- examples/tests/11-ranap.rs:8457-8459 -/
def INTEGER_46 : Ty := .integer .u32 (some 1) (some 8639999) true
/-- examples/tests/11-ranap.rs:2259-2266 -/
def PeriodicLocationInfo : Ty := .sequence true 1 (.required false INTEGER_46 (.required false INTEGER_47 (.optional 0 PeriodicLocationInfoIE_Extensions .nil)))
/-- examples/tests/11-ranap.rs:3644-3646 -/
def ResponseTime : Ty := .enumerated .u8 (some 0) (some 1) true
/-- examples/tests/11-ranap.rs:2321-2323 -/
def PositioningPriority : Ty := .enumerated .u8 (some 0) (some 1) true
/-- examples/tests/11-ranap.rs:4516-4518 -/
def VerticalAccuracyCode : Ty := .integer .u8 (some 0) (some 127) false
/-- examples/tests/11-ranap.rs:2268-2270 -/
def PeriodicReportingIndicator : Ty := .enumerated .u8 (some 0) (some 1) true
/-- examples/tests/11-ranap.rs:3451-3453 -/
def ReportChangeOfSAI : Ty := .enumerated .u8 (some 0) (some 0) true
/-- examples/tests/11-ranap.rs:1512-1539 -/
def LocationReportingTransferInformation : Ty := .sequence true 12 (.optional 0 ReportChangeOfSAI (.optional 1 PeriodicReportingIndicator (.optional 2 DirectReportingIndicator (.optional 3 VerticalAccuracyCode (.optional 4 PositioningPriority (.optional 5 PositioningPriority (.optional 6 ClientType (.optional 7 ClientType (.optional 8 ResponseTime (.optional 9 IncludeVelocity (.optional 10 PeriodicLocationInfo (.optional 11 LocationReportingTransferInformationIE_Extensions .nil))))))))))))
/-- examples/tests/11-ranap.rs:3228-3241 -/
def RNSAPRelocationParameters : Ty := .sequence true 5 (.optional 0 RABParametersList (.optional 1 LocationReportingTransferInformation (.optional 2 TraceInformation (.optional 3 SAI (.optional 4 RNSAPRelocationParametersIE_Extensions .nil)))))
/-- examples/tests/11-ranap.rs:10175-10182 -/
def RANAP_RelocationInformationProtocolExtensions_EntryExtensionValue : Ty := .openType (.cons 247 false RNSAPRelocationParameters (.cons 103 false RRC_Container .nil))
/-- examples/tests/11-ranap.rs:10184-10191 -/
def RANAP_RelocationInformationProtocolExtensions_Entry : Ty := .sequence false 0 (.required true ProtocolExtensionID (.required false Criticality (.required false RANAP_RelocationInformationProtocolExtensions_EntryExtensionValue .nil)))
/-- examples/tests/11-ranap.rs:10193-10202 -/
def RANAP_RelocationInformationProtocolExtensions : Ty := .sequenceOf (some 1) (some 65535) false RANAP_RelocationInformationProtocolExtensions_Entry
/-- examples/tests/11-ranap.rs:8684-8686 -/
def RAB_ContextItem_RANAP_RelocInfIE_Extensions_Entry : Ty := .sequence false 0 .nil
/-- examples/tests/11-ranap.rs:8688-8697 -/
def RAB_ContextItem_RANAP_RelocInfIE_Extensions : Ty := .sequenceOf (some 1) (some 65535) false RAB_ContextItem_RANAP_RelocInfIE_Extensions_Entry
/-- examples/tests/11-ranap.rs:2463-2477 -/
def RAB_ContextItem_RANAP_RelocInf : Ty := .sequence true 5 (.required false RAB_ID (.optional 0 DL_GTP_PDU_SequenceNumber (.optional 1 UL_GTP_PDU_SequenceNumber (.optional 2 DL_N_PDU_SequenceNumber (.optional 3 UL_N_PDU_SequenceNumber (.optional 4 RAB_ContextItem_RANAP_RelocInfIE_Extensions .nil))))))
/-- examples/tests/11-ranap.rs:8724-8729 -/
def RAB_ContextList_RANAP_RelocInf_Entry_EntryValue : Ty := .openType (.cons 82 false RAB_ContextItem_RANAP_RelocInf .nil)
/-- examples/tests/11-ranap.rs:8731-8738 -/
def RAB_ContextList_RANAP_RelocInf_Entry_Entry : Ty := .sequence false 0 (.required true ProtocolIE_ID (.required false Criticality (.required false RAB_ContextList_RANAP_RelocInf_Entry_EntryValue .nil)))
/-- examples/tests/11-ranap.rs:8740-8749 -/
def RAB_ContextList_RANAP_RelocInf_Entry : Ty := .sequenceOf (some 0) (some 65535) false RAB_ContextList_RANAP_RelocInf_Entry_Entry
/-- examples/tests/11-ranap.rs:2488-2495 -/
def RAB_ContextList_RANAP_RelocInf : Ty := .sequenceOf (some 1) (some 256) false RAB_ContextList_RANAP_RelocInf_Entry
/-- examples/tests/11-ranap.rs:10146-10153 -/
def RANAP_RelocationInformationProtocolIEs_EntryValue : Ty := .openType (.cons 81 false DirectTransferInformationList_RANAP_RelocInf (.cons 83 false RAB_ContextList_RANAP_RelocInf .nil))
/-- examples/tests/11-ranap.rs:10155-10162 -/
def RANAP_RelocationInformationProtocolIEs_Entry : Ty := .sequence false 0 (.required true ProtocolIE_ID (.required false Criticality (.required false RANAP_RelocationInformationProtocolIEs_EntryValue .nil)))
/-- examples/tests/11-ranap.rs:10164-10173 -/
def RANAP_RelocationInformationProtocolIEs : Ty := .sequenceOf (some 0) (some 65535) false RANAP_RelocationInformationProtocolIEs_Entry
/-- examples/tests/11-ranap.rs:3163-3169 -/
def RANAP_RelocationInformation : Ty := .sequence true 1 (.required false RANAP_RelocationInformationProtocolIEs (.optional 0 RANAP_RelocationInformationProtocolExtensions .nil))
/-- examples/tests/11-ranap.rs:9242-9244 -/
def RAB_ReleaseRequestProtocolExtensions_Entry : Ty := .sequence false 0 .nil
/-- examples/tests/11-ranap.rs:9246-9255 -/
def RAB_ReleaseRequestProtocolExtensions : Ty := .sequenceOf (some 1) (some 65535) false RAB_ReleaseRequestProtocolExtensions_Entry
/-- examples/tests/11-ranap.rs:9179-9181 -/
def RAB_ReleaseItemIE_Extensions_Entry : Ty := .sequence false 0 .nil
/-- examples/tests/11-ranap.rs:9183-9190 -/
def RAB_ReleaseItemIE_Extensions : Ty := .sequenceOf (some 1) (some 65535) false RAB_ReleaseItemIE_Extensions_Entry
/-- examples/tests/11-ranap.rs:2705-2712 -/
def RAB_ReleaseItem : Ty := .sequence true 1 (.required false RAB_ID (.required false Cause (.optional 0 RAB_ReleaseItemIE_Extensions .nil)))
/-- examples/tests/11-ranap.rs:9192-9197 -/
def RAB_ReleaseList_Entry_EntryValue : Ty := .openType (.cons 40 false RAB_ReleaseItem .nil)
/-- examples/tests/11-ranap.rs:9199-9206 -/
def RAB_ReleaseList_Entry_Entry : Ty := .sequence false 0 (.required true ProtocolIE_ID (.required false Criticality (.required false RAB_ReleaseList_Entry_EntryValue .nil)))
/-- examples/tests/11-ranap.rs:9208-9215 -/
def RAB_ReleaseList_Entry : Ty := .sequenceOf (some 0) (some 65535) false RAB_ReleaseList_Entry_Entry
/-- examples/tests/11-ranap.rs:2714-2721 -/
def RAB_ReleaseList : Ty := .sequenceOf (some 1) (some 256) false RAB_ReleaseList_Entry
/-- examples/tests/11-ranap.rs:9217-9222 -/
def RAB_ReleaseRequestProtocolIEs_EntryValue : Ty := .openType (.cons 41 false RAB_ReleaseList .nil)
/-- examples/tests/11-ranap.rs:9224-9231 -/
def RAB_ReleaseRequestProtocolIEs_Entry : Ty := .sequence false 0 (.required true ProtocolIE_ID (.required false Criticality (.required false RAB_ReleaseRequestProtocolIEs_EntryValue .nil)))
/-- examples/tests/11-ranap.rs:9233-9240 -/
def RAB_ReleaseRequestProtocolIEs : Ty := .sequenceOf (some 0) (some 65535) false RAB_ReleaseRequestProtocolIEs_Entry
/-- examples/tests/11-ranap.rs:2723-2729 -/
def RAB_ReleaseRequest : Ty := .sequence true 1 (.required false RAB_ReleaseRequestProtocolIEs (.optional 0 RAB_ReleaseRequestProtocolExtensions .nil))
/-- examples/tests/11-ranap.rs:9095-9097 -/
def RAB_ModifyRequestProtocolExtensions_Entry : Ty := .sequence false 0 .nil
/-- examples/tests/11-ranap.rs:9099-9106 -/
def RAB_ModifyRequestProtocolExtensions : Ty := .sequenceOf (some 1) (some 65535) false RAB_ModifyRequestProtocolExtensions_Entry
/-- examples/tests/11-ranap.rs:9032-9034 -/
def RAB_ModifyItemIE_Extensions_Entry : Ty := .sequence false 0 .nil
/-- examples/tests/11-ranap.rs:9036-9043 -/
def RAB_ModifyItemIE_Extensions : Ty := .sequenceOf (some 1) (some 65535) false RAB_ModifyItemIE_Extensions_Entry
/-- examples/tests/11-ranap.rs:3492-3494 -/
def Requested_RAB_Parameter_ExtendedMaxBitrateList : Ty := .sequenceOf (some 1) (some 2) false ExtendedMaxBitrate
/-- examples/tests/11-ranap.rs:3486-3490 -/
def Requested_RAB_Parameter_ExtendedGuaranteedBitrateList : Ty := .sequenceOf (some 1) (some 2) false ExtendedGuaranteedBitrate
/-- examples/tests/11-ranap.rs:10896-10913 -/
def Requested_RAB_Parameter_ValuesIE_Extensions_EntryExtensionValue : Ty := .openType (.cons 159 false AlternativeRABConfigurationRequest (.cons 179 false Requested_RAB_Parameter_ExtendedGuaranteedBitrateList (.cons 178 false Requested_RAB_Parameter_ExtendedMaxBitrateList (.cons 221 false SupportedRAB_ParameterBitrateList (.cons 220 false SupportedRAB_ParameterBitrateList .nil)))))
/-- examples/tests/11-ranap.rs:10915-10922 -/
def Requested_RAB_Parameter_ValuesIE_Extensions_Entry : Ty := .sequence false 0 (.required true ProtocolExtensionID (.required false Criticality (.required false Requested_RAB_Parameter_ValuesIE_Extensions_EntryExtensionValue .nil)))
/-- examples/tests/11-ranap.rs:10924-10933 -/
def Requested_RAB_Parameter_ValuesIE_Extensions : Ty := .sequenceOf (some 1) (some 65535) false Requested_RAB_Parameter_ValuesIE_Extensions_Entry
/-- examples/tests/11-ranap.rs:3496-3498 -/
def Requested_RAB_Parameter_GuaranteedBitrateList : Ty := .sequenceOf (some 1) (some 2) false GuaranteedBitrate
/-- examples/tests/11-ranap.rs:3500-3502 -/
def Requested_RAB_Parameter_MaxBitrateList : Ty := .sequenceOf (some 1) (some 2) false MaxBitrate
/-- examples/tests/11-ranap.rs:3504-3513 -/
def Requested_RAB_Parameter_Values : Ty := .sequence true 3 (.optional 0 Requested_RAB_Parameter_MaxBitrateList (.optional 1 Requested_RAB_Parameter_GuaranteedBitrateList (.optional 2 Requested_RAB_Parameter_ValuesIE_Extensions .nil)))
/-- examples/tests/11-ranap.rs:2619-2626 -/
def RAB_ModifyItem : Ty := .sequence true 1 (.required false RAB_ID (.required false Requested_RAB_Parameter_Values (.optional 0 RAB_ModifyItemIE_Extensions .nil)))
/-- examples/tests/11-ranap.rs:9045-9050 -/
def RAB_ModifyList_Entry_EntryValue : Ty := .openType (.cons 92 false RAB_ModifyItem .nil)
/-- examples/tests/11-ranap.rs:9052-9059 -/
def RAB_ModifyList_Entry_Entry : Ty := .sequence false 0 (.required true ProtocolIE_ID (.required false Criticality (.required false RAB_ModifyList_Entry_EntryValue .nil)))
/-- examples/tests/11-ranap.rs:9061-9068 -/
def RAB_ModifyList_Entry : Ty := .sequenceOf (some 0) (some 65535) false RAB_ModifyList_Entry_Entry
/-- examples/tests/11-ranap.rs:2628-2635 -/
def RAB_ModifyList : Ty := .sequenceOf (some 1) (some 256) false RAB_ModifyList_Entry
/-- examples/tests/11-ranap.rs:9070-9075 -/
def RAB_ModifyRequestProtocolIEs_EntryValue : Ty := .openType (.cons 91 false RAB_ModifyList .nil)
/-- examples/tests/11-ranap.rs:9077-9084 -/
def RAB_ModifyRequestProtocolIEs_Entry : Ty := .sequence false 0 (.required true ProtocolIE_ID (.required false Criticality (.required false RAB_ModifyRequestProtocolIEs_EntryValue .nil)))
/-- examples/tests/11-ranap.rs:9086-9093 -/
def RAB_ModifyRequestProtocolIEs : Ty := .sequenceOf (some 0) (some 65535) false RAB_ModifyRequestProtocolIEs_Entry
/-- examples/tests/11-ranap.rs:2637-2643 -/
def RAB_ModifyRequest : Ty := .sequence true 1 (.required false RAB_ModifyRequestProtocolIEs (.optional 0 RAB_ModifyRequestProtocolExtensions .nil))
/-- examples/tests/11-ranap.rs:8553-8560 -/
def RAB_AssignmentRequestProtocolExtensions_EntryExtensionValue : Ty := .openType (.cons 239 false MSISDN (.cons 233 false UE_AggregateMaximumBitRate .nil))
/-- examples/tests/11-ranap.rs:8562-8569 -/
def RAB_AssignmentRequestProtocolExtensions_Entry : Ty := .sequence false 0 (.required true ProtocolExtensionID (.required false Criticality (.required false RAB_AssignmentRequestProtocolExtensions_EntryExtensionValue .nil)))
/-- examples/tests/11-ranap.rs:8571-8580 -/
def RAB_AssignmentRequestProtocolExtensions : Ty := .sequenceOf (some 1) (some 65535) false RAB_AssignmentRequestProtocolExtensions_Entry
/-- examples/tests/11-ranap.rs:9762-9773 -/
def RAB_SetupOrModifyItemSecondIE_Extensions_EntryExtensionValue : Ty := .openType (.cons 89 false Alt_RAB_Parameters (.cons 107 false GERAN_BSC_Container (.cons 240 false Offload_RAB_Parameters (.cons 238 false PDP_TypeInformation_extension .nil))))
/-- examples/tests/11-ranap.rs:9775-9782 -/
def RAB_SetupOrModifyItemSecondIE_Extensions_Entry : Ty := .sequence false 0 (.required true ProtocolExtensionID (.required false Criticality (.required false RAB_SetupOrModifyItemSecondIE_Extensions_EntryExtensionValue .nil)))
/-- examples/tests/11-ranap.rs:9784-9793 -/
def RAB_SetupOrModifyItemSecondIE_Extensions : Ty := .sequenceOf (some 1) (some 65535) false RAB_SetupOrModifyItemSecondIE_Extensions_Entry
/-- examples/tests/11-ranap.rs:2990-3007 -/
def RAB_SetupOrModifyItemSecond : Ty := .sequence true 7 (.optional 0 PDP_TypeInformation (.optional 1 DataVolumeReportingIndication (.optional 2 DL_GTP_PDU_SequenceNumber (.optional 3 UL_GTP_PDU_SequenceNumber (.optional 4 DL_N_PDU_SequenceNumber (.optional 5 UL_N_PDU_SequenceNumber (.optional 6 RAB_SetupOrModifyItemSecondIE_Extensions .nil)))))))
/-- examples/tests/11-ranap.rs:9802-9807 -/
def RAB_SetupOrModifyList_Entry_EntrySecondValue : Ty := .openType (.cons 53 false RAB_SetupOrModifyItemSecond .nil)
/-- examples/tests/11-ranap.rs:9731-9740 -/
def RAB_SetupOrModifyItemFirstIE_Extensions_EntryExtensionValue : Ty := .openType (.cons 242 false Correlation_ID (.cons 231 false E_UTRAN_Service_Handover (.cons 274 false Correlation_ID .nil)))
/-- examples/tests/11-ranap.rs:9742-9749 -/
def RAB_SetupOrModifyItemFirstIE_Extensions_Entry : Ty := .sequence false 0 (.required true ProtocolExtensionID (.required false Criticality (.required false RAB_SetupOrModifyItemFirstIE_Extensions_EntryExtensionValue .nil)))
/-- examples/tests/11-ranap.rs:9751-9760 -/
def RAB_SetupOrModifyItemFirstIE_Extensions : Ty := .sequenceOf (some 1) (some 65535) false RAB_SetupOrModifyItemFirstIE_Extensions_Entry
/-- examples/tests/11-ranap.rs:12154-12156 -/
def TransportLayerInformationIE_Extensions_Entry : Ty := .sequence false 0 .nil
/-- examples/tests/11-ranap.rs:12158-12167 -/
def TransportLayerInformationIE_Extensions : Ty := .sequenceOf (some 1) (some 65535) false TransportLayerInformationIE_Extensions_Entry
/-- examples/tests/11-ranap.rs:4201-4208 -/
def TransportLayerInformation : Ty := .sequence true 1 (.required false TransportLayerAddress (.required false IuTransportAssociation (.optional 0 TransportLayerInformationIE_Extensions .nil)))
/-- examples/tests/11-ranap.rs:2972-2988 -/
def RAB_SetupOrModifyItemFirst : Ty := .sequence true 6 (.required false RAB_ID (.optional 0 NAS_SynchronisationIndicator (.optional 1 RAB_Parameters (.optional 2 UserPlaneInformation (.optional 3 TransportLayerInformation (.optional 4 Service_Handover (.optional 5 RAB_SetupOrModifyItemFirstIE_Extensions .nil)))))))
/-- examples/tests/11-ranap.rs:9795-9800 -/
def RAB_SetupOrModifyList_Entry_EntryFirstValue : Ty := .openType (.cons 53 false RAB_SetupOrModifyItemFirst .nil)
/-- examples/tests/11-ranap.rs:9809-9818 -/
def RAB_SetupOrModifyList_Entry_Entry : Ty := .sequence false 0 (.required true ProtocolIE_ID (.required false Criticality (.required false RAB_SetupOrModifyList_Entry_EntryFirstValue (.required false Criticality (.required false RAB_SetupOrModifyList_Entry_EntrySecondValue .nil)))))
/-- examples/tests/11-ranap.rs:9820-9827 -/
def RAB_SetupOrModifyList_Entry : Ty := .sequenceOf (some 0) (some 65535) false RAB_SetupOrModifyList_Entry_Entry
/-- examples/tests/11-ranap.rs:3009-3016 -/
def RAB_SetupOrModifyList : Ty := .sequenceOf (some 1) (some 256) false RAB_SetupOrModifyList_Entry
/-- examples/tests/11-ranap.rs:8526-8533 -/
def RAB_AssignmentRequestProtocolIEs_EntryValue : Ty := .openType (.cons 41 false RAB_ReleaseList (.cons 54 false RAB_SetupOrModifyList .nil))
/-- examples/tests/11-ranap.rs:8535-8542 -/
def RAB_AssignmentRequestProtocolIEs_Entry : Ty := .sequence false 0 (.required true ProtocolIE_ID (.required false Criticality (.required false RAB_AssignmentRequestProtocolIEs_EntryValue .nil)))
/-- examples/tests/11-ranap.rs:8544-8551 -/
def RAB_AssignmentRequestProtocolIEs : Ty := .sequenceOf (some 0) (some 65535) false RAB_AssignmentRequestProtocolIEs_Entry
/-- examples/tests/11-ranap.rs:2412-2418 -/
def RAB_AssignmentRequest : Ty := .sequence true 1 (.required false RAB_AssignmentRequestProtocolIEs (.optional 0 RAB_AssignmentRequestProtocolExtensions .nil))
/-- examples/tests/11-ranap.rs:8430-8437 -/
def PagingProtocolExtensions_EntryExtensionValue : Ty := .openType (.cons 229 false CSG_Id_List (.cons 96 false GlobalCN_ID .nil))
/-- examples/tests/11-ranap.rs:8439-8446 -/
def PagingProtocolExtensions_Entry : Ty := .sequence false 0 (.required true ProtocolExtensionID (.required false Criticality (.required false PagingProtocolExtensions_EntryExtensionValue .nil)))
/-- examples/tests/11-ranap.rs:8448-8455 -/
def PagingProtocolExtensions : Ty := .sequenceOf (some 1) (some 65535) false PagingProtocolExtensions_Entry
/-- examples/tests/11-ranap.rs:4005-4007 -/
def TMSI : Ty := .octetstring (some 4) (some 4) false
/-- examples/tests/11-ranap.rs:4085-4092 -/
def TemporaryUE_ID : Ty := .choice 0 1 true (.cons 0 false TMSI (.cons 1 false P_TMSI .nil))
/-- examples/tests/11-ranap.rs:2248-2250 -/
def PagingCause : Ty := .enumerated .u8 (some 0) (some 4) true
/-- examples/tests/11-ranap.rs:2239-2246 -/
def PagingAreaID : Ty := .choice 0 1 true (.cons 0 false LAI (.cons 1 false RAI .nil))
/-- examples/tests/11-ranap.rs:2092-2094 -/
def NonSearchingIndication : Ty := .enumerated .u8 (some 0) (some 1) false
/-- examples/tests/11-ranap.rs:8393-8410 -/
def PagingProtocolIEs_EntryValue : Ty := .openType (.cons 3 false CN_DomainIndicator (.cons 76 false DRX_CycleLengthCoefficient (.cons 17 false NonSearchingIndication (.cons 21 false PagingAreaID (.cons 22 false PagingCause (.cons 23 false PermanentNAS_UE_ID (.cons 64 false TemporaryUE_ID .nil)))))))
/-- examples/tests/11-ranap.rs:8412-8419 -/
def PagingProtocolIEs_Entry : Ty := .sequence false 0 (.required true ProtocolIE_ID (.required false Criticality (.required false PagingProtocolIEs_EntryValue .nil)))
/-- examples/tests/11-ranap.rs:8421-8428 -/
def PagingProtocolIEs : Ty := .sequenceOf (some 0) (some 65535) false PagingProtocolIEs_Entry
/-- examples/tests/11-ranap.rs:2231-2237 -/
def Paging : Ty := .sequence true 1 (.required false PagingProtocolIEs (.optional 0 PagingProtocolExtensions .nil))
/-- examples/tests/11-ranap.rs:2362-2364 -/
def Priority_Class_Indicator : Ty := .bitstring (some 8) (some 8) false
/-- examples/tests/11-ranap.rs:8325-8336 -/
def OverloadProtocolExtensions_EntryExtensionValue : Ty := .openType (.cons 3 false CN_DomainIndicator (.cons 171 false ExtendedRNC_ID (.cons 96 false GlobalCN_ID (.cons 245 false Priority_Class_Indicator .nil))))
/-- examples/tests/11-ranap.rs:8338-8345 -/
def OverloadProtocolExtensions_Entry : Ty := .sequence false 0 (.required true ProtocolExtensionID (.required false Criticality (.required false OverloadProtocolExtensions_EntryExtensionValue .nil)))
/-- examples/tests/11-ranap.rs:8347-8354 -/
def OverloadProtocolExtensions : Ty := .sequenceOf (some 1) (some 65535) false OverloadProtocolExtensions_Entry
/-- examples/tests/11-ranap.rs:2116-2118 -/
def NumberOfSteps : Ty := .integer .u8 (some 1) (some 16) false
/-- examples/tests/11-ranap.rs:8298-8305 -/
def OverloadProtocolIEs_EntryValue : Ty := .openType (.cons 86 false GlobalRNC_ID (.cons 18 false NumberOfSteps .nil))
/-- examples/tests/11-ranap.rs:8307-8314 -/
def OverloadProtocolIEs_Entry : Ty := .sequence false 0 (.required true ProtocolIE_ID (.required false Criticality (.required false OverloadProtocolIEs_EntryValue .nil)))
/-- examples/tests/11-ranap.rs:8316-8323 -/
def OverloadProtocolIEs : Ty := .sequenceOf (some 0) (some 65535) false OverloadProtocolIEs_Entry
/-- examples/tests/11-ranap.rs:2171-2177 -/
def Overload : Ty := .sequence true 1 (.required false OverloadProtocolIEs (.optional 0 OverloadProtocolExtensions .nil))
/-- examples/tests/11-ranap.rs:8134-8136 -/
def MBMSUELinkingRequestProtocolExtensions_Entry : Ty := .sequence false 0 .nil
/-- examples/tests/11-ranap.rs:8138-8147 -/
def MBMSUELinkingRequestProtocolExtensions : Ty := .sequenceOf (some 1) (some 65535) false MBMSUELinkingRequestProtocolExtensions_Entry
/-- examples/tests/11-ranap.rs:6873-6875 -/
def LeftMBMSBearerService_IEs_EntryIE_Extensions_Entry : Ty := .sequence false 0 .nil
/-- examples/tests/11-ranap.rs:6877-6886 -/
def LeftMBMSBearerService_IEs_EntryIE_Extensions : Ty := .sequenceOf (some 1) (some 65535) false LeftMBMSBearerService_IEs_EntryIE_Extensions_Entry
/-- examples/tests/11-ranap.rs:6888-6894 -/
def LeftMBMSBearerService_IEs_Entry : Ty := .sequence true 1 (.required false TMGI (.optional 0 LeftMBMSBearerService_IEs_EntryIE_Extensions .nil))
/-- examples/tests/11-ranap.rs:1420-1427 -/
def LeftMBMSBearerService_IEs : Ty := .sequenceOf (some 1) (some 128) false LeftMBMSBearerService_IEs_Entry
/-- examples/tests/11-ranap.rs:8107-8114 -/
def MBMSUELinkingRequestProtocolIEs_EntryValue : Ty := .openType (.cons 141 false JoinedMBMSBearerService_IEs (.cons 142 false LeftMBMSBearerService_IEs .nil))
/-- examples/tests/11-ranap.rs:8116-8123 -/
def MBMSUELinkingRequestProtocolIEs_Entry : Ty := .sequence false 0 (.required true ProtocolIE_ID (.required false Criticality (.required false MBMSUELinkingRequestProtocolIEs_EntryValue .nil)))
/-- examples/tests/11-ranap.rs:8125-8132 -/
def MBMSUELinkingRequestProtocolIEs : Ty := .sequenceOf (some 0) (some 65535) false MBMSUELinkingRequestProtocolIEs_Entry
/-- examples/tests/11-ranap.rs:1942-1948 -/
def MBMSUELinkingRequest : Ty := .sequence true 1 (.required false MBMSUELinkingRequestProtocolIEs (.optional 0 MBMSUELinkingRequestProtocolExtensions .nil))
/-- examples/tests/11-ranap.rs:7975-7977 -/
def MBMSSessionUpdateProtocolExtensions_Entry : Ty := .sequence false 0 .nil
/-- examples/tests/11-ranap.rs:7979-7986 -/
def MBMSSessionUpdateProtocolExtensions : Ty := .sequenceOf (some 1) (some 65535) false MBMSSessionUpdateProtocolExtensions_Entry
/-- examples/tests/11-ranap.rs:3851-3853 -/
def SessionUpdateID : Ty := .integer .u32 (some 0) (some 1048575) false
/-- examples/tests/11-ranap.rs:7948-7955 -/
def MBMSSessionUpdateProtocolIEs_EntryValue : Ty := .openType (.cons 134 false DeltaRAListofIdleModeUEs (.cons 152 false SessionUpdateID .nil))
/-- examples/tests/11-ranap.rs:7957-7964 -/
def MBMSSessionUpdateProtocolIEs_Entry : Ty := .sequence false 0 (.required true ProtocolIE_ID (.required false Criticality (.required false MBMSSessionUpdateProtocolIEs_EntryValue .nil)))
/-- examples/tests/11-ranap.rs:7966-7973 -/
def MBMSSessionUpdateProtocolIEs : Ty := .sequenceOf (some 0) (some 65535) false MBMSSessionUpdateProtocolIEs_Entry
/-- examples/tests/11-ranap.rs:1908-1914 -/
def MBMSSessionUpdate : Ty := .sequence true 1 (.required false MBMSSessionUpdateProtocolIEs (.optional 0 MBMSSessionUpdateProtocolExtensions .nil))
/-- examples/tests/11-ranap.rs:7893-7895 -/
def MBMSSessionStopProtocolExtensions_Entry : Ty := .sequence false 0 .nil
/-- examples/tests/11-ranap.rs:7897-7904 -/
def MBMSSessionStopProtocolExtensions : Ty := .sequenceOf (some 1) (some 65535) false MBMSSessionStopProtocolExtensions_Entry
/-- examples/tests/11-ranap.rs:1722-1724 -/
def MBMSCNDe_Registration : Ty := .enumerated .u8 (some 0) (some 1) true
/-- examples/tests/11-ranap.rs:7868-7873 -/
def MBMSSessionStopProtocolIEs_EntryValue : Ty := .openType (.cons 144 false MBMSCNDe_Registration .nil)
/-- examples/tests/11-ranap.rs:7875-7882 -/
def MBMSSessionStopProtocolIEs_Entry : Ty := .sequence false 0 (.required true ProtocolIE_ID (.required false Criticality (.required false MBMSSessionStopProtocolIEs_EntryValue .nil)))
/-- examples/tests/11-ranap.rs:7884-7891 -/
def MBMSSessionStopProtocolIEs : Ty := .sequenceOf (some 0) (some 65535) false MBMSSessionStopProtocolIEs_Entry
/-- examples/tests/11-ranap.rs:1892-1898 -/
def MBMSSessionStop : Ty := .sequence true 1 (.required false MBMSSessionStopProtocolIEs (.optional 0 MBMSSessionStopProtocolExtensions .nil))
/-- examples/tests/11-ranap.rs:3844-3846 -/
def Session_Re_establishment_Indicator : Ty := .enumerated .u8 (some 0) (some 0) true
/-- examples/tests/11-ranap.rs:8080-8085 -/
def MBMSSynchronisationInformationIE_Extensions_EntryExtensionValue : Ty := .openType (.cons 236 false IPMulticastAddress .nil)
/-- examples/tests/11-ranap.rs:8087-8094 -/
def MBMSSynchronisationInformationIE_Extensions_Entry : Ty := .sequence false 0 (.required true ProtocolExtensionID (.required false Criticality (.required false MBMSSynchronisationInformationIE_Extensions_EntryExtensionValue .nil)))
/-- examples/tests/11-ranap.rs:8096-8105 -/
def MBMSSynchronisationInformationIE_Extensions : Ty := .sequenceOf (some 1) (some 65535) false MBMSSynchronisationInformationIE_Extensions_Entry
/-- examples/tests/11-ranap.rs:1754-1756 -/
def MBMSHCIndicator : Ty := .enumerated .u8 (some 0) (some 1) true
/-- examples/tests/11-ranap.rs:1932-1940 -/
def MBMSSynchronisationInformation : Ty := .sequence true 1 (.required false MBMSHCIndicator (.required false IPMulticastAddress (.required false GTP_TEI (.optional 0 MBMSSynchronisationInformationIE_Extensions .nil))))
/-- examples/tests/11-ranap.rs:1746-1748 -/
def MBMSCountingInformation : Ty := .enumerated .u8 (some 0) (some 1) true
/-- examples/tests/11-ranap.rs:7751-7762 -/
def MBMSSessionStartProtocolExtensions_EntryExtensionValue : Ty := .openType (.cons 169 false MBMSCountingInformation (.cons 201 false MBMSSynchronisationInformation (.cons 238 false PDP_TypeInformation_extension (.cons 276 false Session_Re_establishment_Indicator .nil))))
/-- examples/tests/11-ranap.rs:7764-7771 -/
def MBMSSessionStartProtocolExtensions_Entry : Ty := .sequence false 0 (.required true ProtocolExtensionID (.required false Criticality (.required false MBMSSessionStartProtocolExtensions_EntryExtensionValue .nil)))
/-- examples/tests/11-ranap.rs:7773-7780 -/
def MBMSSessionStartProtocolExtensions : Ty := .sequenceOf (some 1) (some 65535) false MBMSSessionStartProtocolExtensions_Entry
/-- examples/tests/11-ranap.rs:4102-4104 -/
def TimeToMBMSDataTransfer : Ty := .octetstring (some 1) (some 1) false
/-- examples/tests/11-ranap.rs:10005-10007 -/
def ENUMERATED_50 : Ty := .enumerated .u8 (some 0) (some 1) true
/-- examples/tests/11-ranap.rs:8243-8248 -/
def NotEmptyRAListofIdleModeUEsIE_Extensions_EntryExtensionValue : Ty := .openType (.cons 180 false LAListofIdleModeUEs .nil)
/-- examples/tests/11-ranap.rs:8250-8257 -/
def NotEmptyRAListofIdleModeUEsIE_Extensions_Entry : Ty := .sequence false 0 (.required true ProtocolExtensionID (.required false Criticality (.required false NotEmptyRAListofIdleModeUEsIE_Extensions_EntryExtensionValue .nil)))
/-- examples/tests/11-ranap.rs:8259-8268 -/
def NotEmptyRAListofIdleModeUEsIE_Extensions : Ty := .sequenceOf (some 1) (some 65535) false NotEmptyRAListofIdleModeUEsIE_Extensions_Entry
/-- examples/tests/11-ranap.rs:3179-3186 -/
def RAofIdleModeUEs : Ty := .sequenceOf (some 1) (some 65536) false RAC
/-- examples/tests/11-ranap.rs:2100-2106 -/
def NotEmptyRAListofIdleModeUEs : Ty := .sequence false 1 (.required false RAofIdleModeUEs (.optional 0 NotEmptyRAListofIdleModeUEsIE_Extensions .nil))
/-- examples/tests/11-ranap.rs:3116-3123 -/
def RAListofIdleModeUEs : Ty := .choice 0 1 true (.cons 0 false NotEmptyRAListofIdleModeUEs (.cons 1 false ENUMERATED_50 .nil))
/-- examples/tests/11-ranap.rs:1864-1866 -/
def MBMSSessionRepetitionNumber : Ty := .octetstring (some 1) (some 1) false
/-- examples/tests/11-ranap.rs:1860-1862 -/
def MBMSSessionIdentity : Ty := .octetstring (some 1) (some 1) false
/-- examples/tests/11-ranap.rs:1856-1858 -/
def MBMSSessionDuration : Ty := .octetstring (some 3) (some 3) false
/-- examples/tests/11-ranap.rs:1852-1854 -/
def MBMSServiceArea : Ty := .octetstring none none false
/-- examples/tests/11-ranap.rs:1714-1716 -/
def MBMSBearerServiceType : Ty := .enumerated .u8 (some 0) (some 1) true
/-- examples/tests/11-ranap.rs:7702-7731 -/
def MBMSSessionStartProtocolIEs_EntryValue : Ty := .openType (.cons 135 false FrequenceLayerConvergenceFlag (.cons 96 false GlobalCN_ID (.cons 79 false IuSignallingConnectionIdentifier (.cons 143 false MBMSBearerServiceType (.cons 145 false MBMSServiceArea (.cons 146 false MBMSSessionDuration (.cons 147 false MBMSSessionIdentity (.cons 157 false MBMSSessionRepetitionNumber (.cons 148 false PDP_TypeInformation (.cons 149 false RAB_Parameters (.cons 150 false RAListofIdleModeUEs (.cons 153 false TMGI (.cons 163 false TimeToMBMSDataTransfer .nil)))))))))))))
/-- examples/tests/11-ranap.rs:7733-7740 -/
def MBMSSessionStartProtocolIEs_Entry : Ty := .sequence false 0 (.required true ProtocolIE_ID (.required false Criticality (.required false MBMSSessionStartProtocolIEs_EntryValue .nil)))
/-- examples/tests/11-ranap.rs:7742-7749 -/
def MBMSSessionStartProtocolIEs : Ty := .sequenceOf (some 0) (some 65535) false MBMSSessionStartProtocolIEs_Entry
/-- examples/tests/11-ranap.rs:1868-1874 -/
def MBMSSessionStart : Ty := .sequence true 1 (.required false MBMSSessionStartProtocolIEs (.optional 0 MBMSSessionStartProtocolExtensions .nil))
/-- examples/tests/11-ranap.rs:7631-7636 -/
def MBMSRegistrationRequestProtocolExtensions_EntryExtensionValue : Ty := .openType (.cons 171 false ExtendedRNC_ID .nil)
/-- examples/tests/11-ranap.rs:7638-7645 -/
def MBMSRegistrationRequestProtocolExtensions_Entry : Ty := .sequence false 0 (.required true ProtocolExtensionID (.required false Criticality (.required false MBMSRegistrationRequestProtocolExtensions_EntryExtensionValue .nil)))
/-- examples/tests/11-ranap.rs:7647-7656 -/
def MBMSRegistrationRequestProtocolExtensions : Ty := .sequenceOf (some 1) (some 65535) false MBMSRegistrationRequestProtocolExtensions_Entry
/-- examples/tests/11-ranap.rs:1836-1838 -/
def MBMSRegistrationRequestType : Ty := .enumerated .u8 (some 0) (some 1) true
/-- examples/tests/11-ranap.rs:7598-7611 -/
def MBMSRegistrationRequestProtocolIEs_EntryValue : Ty := .openType (.cons 132 false APN (.cons 86 false GlobalRNC_ID (.cons 140 false IPMulticastAddress (.cons 151 false MBMSRegistrationRequestType (.cons 153 false TMGI .nil)))))
/-- examples/tests/11-ranap.rs:7613-7620 -/
def MBMSRegistrationRequestProtocolIEs_Entry : Ty := .sequence false 0 (.required true ProtocolIE_ID (.required false Criticality (.required false MBMSRegistrationRequestProtocolIEs_EntryValue .nil)))
/-- examples/tests/11-ranap.rs:7622-7629 -/
def MBMSRegistrationRequestProtocolIEs : Ty := .sequenceOf (some 0) (some 65535) false MBMSRegistrationRequestProtocolIEs_Entry
/-- examples/tests/11-ranap.rs:1828-1834 -/
def MBMSRegistrationRequest : Ty := .sequence true 1 (.required false MBMSRegistrationRequestProtocolIEs (.optional 0 MBMSRegistrationRequestProtocolExtensions .nil))
/-- examples/tests/11-ranap.rs:7537-7539 -/
def MBMSRABReleaseRequestProtocolExtensions_Entry : Ty := .sequence false 0 .nil
/-- examples/tests/11-ranap.rs:7541-7550 -/
def MBMSRABReleaseRequestProtocolExtensions : Ty := .sequenceOf (some 1) (some 65535) false MBMSRABReleaseRequestProtocolExtensions_Entry
/-- examples/tests/11-ranap.rs:7512-7517 -/
def MBMSRABReleaseRequestProtocolIEs_EntryValue : Ty := .openType (.cons 4 false Cause .nil)
/-- examples/tests/11-ranap.rs:7519-7526 -/
def MBMSRABReleaseRequestProtocolIEs_Entry : Ty := .sequence false 0 (.required true ProtocolIE_ID (.required false Criticality (.required false MBMSRABReleaseRequestProtocolIEs_EntryValue .nil)))
/-- examples/tests/11-ranap.rs:7528-7535 -/
def MBMSRABReleaseRequestProtocolIEs : Ty := .sequenceOf (some 0) (some 65535) false MBMSRABReleaseRequestProtocolIEs_Entry
/-- examples/tests/11-ranap.rs:1812-1818 -/
def MBMSRABReleaseRequest : Ty := .sequence true 1 (.required false MBMSRABReleaseRequestProtocolIEs (.optional 0 MBMSRABReleaseRequestProtocolExtensions .nil))
/-- examples/tests/11-ranap.rs:7415-7417 -/
def MBMSRABEstablishmentIndicationProtocolExtensions_Entry : Ty := .sequence false 0 .nil
/-- examples/tests/11-ranap.rs:7419-7428 -/
def MBMSRABEstablishmentIndicationProtocolExtensions : Ty := .sequenceOf (some 1) (some 65535) false MBMSRABEstablishmentIndicationProtocolExtensions_Entry
/-- examples/tests/11-ranap.rs:7388-7393 -/
def MBMSRABEstablishmentIndicationProtocolIEs_EntryValue : Ty := .openType (.cons 154 false TransportLayerInformation .nil)
/-- examples/tests/11-ranap.rs:7395-7402 -/
def MBMSRABEstablishmentIndicationProtocolIEs_Entry : Ty := .sequence false 0 (.required true ProtocolIE_ID (.required false Criticality (.required false MBMSRABEstablishmentIndicationProtocolIEs_EntryValue .nil)))
/-- examples/tests/11-ranap.rs:7404-7413 -/
def MBMSRABEstablishmentIndicationProtocolIEs : Ty := .sequenceOf (some 0) (some 65535) false MBMSRABEstablishmentIndicationProtocolIEs_Entry
/-- examples/tests/11-ranap.rs:1788-1794 -/
def MBMSRABEstablishmentIndication : Ty := .sequence true 1 (.required false MBMSRABEstablishmentIndicationProtocolIEs (.optional 0 MBMSRABEstablishmentIndicationProtocolExtensions .nil))
/-- examples/tests/11-ranap.rs:7298-7300 -/
def MBMSCNDe_RegistrationRequestProtocolExtensions_Entry : Ty := .sequence false 0 .nil
/-- examples/tests/11-ranap.rs:7302-7311 -/
def MBMSCNDe_RegistrationRequestProtocolExtensions : Ty := .sequenceOf (some 1) (some 65535) false MBMSCNDe_RegistrationRequestProtocolExtensions_Entry
/-- examples/tests/11-ranap.rs:7269-7276 -/
def MBMSCNDe_RegistrationRequestProtocolIEs_EntryValue : Ty := .openType (.cons 96 false GlobalCN_ID (.cons 153 false TMGI .nil))
/-- examples/tests/11-ranap.rs:7278-7285 -/
def MBMSCNDe_RegistrationRequestProtocolIEs_Entry : Ty := .sequence false 0 (.required true ProtocolIE_ID (.required false Criticality (.required false MBMSCNDe_RegistrationRequestProtocolIEs_EntryValue .nil)))
/-- examples/tests/11-ranap.rs:7287-7296 -/
def MBMSCNDe_RegistrationRequestProtocolIEs : Ty := .sequenceOf (some 0) (some 65535) false MBMSCNDe_RegistrationRequestProtocolIEs_Entry
/-- examples/tests/11-ranap.rs:1730-1736 -/
def MBMSCNDe_RegistrationRequest : Ty := .sequence true 1 (.required false MBMSCNDe_RegistrationRequestProtocolIEs (.optional 0 MBMSCNDe_RegistrationRequestProtocolExtensions .nil))
/-- examples/tests/11-ranap.rs:7155-7170 -/
def LocationReportingControlProtocolExtensions_EntryExtensionValue : Ty := .openType (.cons 114 false ClientType (.cons 164 false IncludeVelocity (.cons 168 false PeriodicLocationInfo (.cons 113 false PositioningPriority (.cons 112 false ResponseTime (.cons 111 false VerticalAccuracyCode .nil))))))
/-- examples/tests/11-ranap.rs:7172-7179 -/
def LocationReportingControlProtocolExtensions_Entry : Ty := .sequence false 0 (.required true ProtocolExtensionID (.required false Criticality (.required false LocationReportingControlProtocolExtensions_EntryExtensionValue .nil)))
/-- examples/tests/11-ranap.rs:7181-7190 -/
def LocationReportingControlProtocolExtensions : Ty := .sequenceOf (some 1) (some 65535) false LocationReportingControlProtocolExtensions_Entry
/-- examples/tests/11-ranap.rs:10892-10894 -/
def INTEGER_56 : Ty := .integer .u8 (some 0) (some 127) false
/-- examples/tests/11-ranap.rs:3443-3445 -/
def ReportArea : Ty := .enumerated .u8 (some 0) (some 1) true
/-- examples/tests/11-ranap.rs:3477-3484 -/
def RequestType : Ty := .sequence true 1 (.required false Event (.required false ReportArea (.optional 0 INTEGER_56 .nil)))
/-- examples/tests/11-ranap.rs:7130-7135 -/
def LocationReportingControlProtocolIEs_EntryValue : Ty := .openType (.cons 57 false RequestType .nil)
/-- examples/tests/11-ranap.rs:7137-7144 -/
def LocationReportingControlProtocolIEs_Entry : Ty := .sequence false 0 (.required true ProtocolIE_ID (.required false Criticality (.required false LocationReportingControlProtocolIEs_EntryValue .nil)))
/-- examples/tests/11-ranap.rs:7146-7153 -/
def LocationReportingControlProtocolIEs : Ty := .sequenceOf (some 0) (some 65535) false LocationReportingControlProtocolIEs_Entry
/-- examples/tests/11-ranap.rs:1504-1510 -/
def LocationReportingControl : Ty := .sequence true 1 (.required false LocationReportingControlProtocolIEs (.optional 0 LocationReportingControlProtocolExtensions .nil))
/-- examples/tests/11-ranap.rs:4503-4514 -/
def VelocityEstimate : Ty := .choice 0 3 true (.cons 0 false HorizontalVelocity (.cons 1 false HorizontalWithVerticalVelocity (.cons 2 false HorizontalVelocityWithUncertainty (.cons 3 false HorizontalWithVerticalVelocityAndUncertainty .nil))))
/-- examples/tests/11-ranap.rs:2305-2307 -/
def PositionDataSpecificToGERANIuMode : Ty := .octetstring none none false
/-- examples/tests/11-ranap.rs:8478-8485 -/
def PositionDataIE_Extensions_EntryExtensionValue : Ty := .openType (.cons 284 false Additional_PositioningDataSet (.cons 184 false GANSS_PositioningDataSet .nil))
/-- examples/tests/11-ranap.rs:8487-8494 -/
def PositionDataIE_Extensions_Entry : Ty := .sequence false 0 (.required true ProtocolExtensionID (.required false Criticality (.required false PositionDataIE_Extensions_EntryExtensionValue .nil)))
/-- examples/tests/11-ranap.rs:8496-8503 -/
def PositionDataIE_Extensions : Ty := .sequenceOf (some 1) (some 65535) false PositionDataIE_Extensions_Entry
/-- examples/tests/11-ranap.rs:2317-2319 -/
def PositioningMethodAndUsage : Ty := .octetstring (some 1) (some 1) false
/-- examples/tests/11-ranap.rs:2313-2315 -/
def PositioningDataSet : Ty := .sequenceOf (some 1) (some 9) false PositioningMethodAndUsage
/-- examples/tests/11-ranap.rs:2309-2311 -/
def PositioningDataDiscriminator : Ty := .bitstring (some 4) (some 4) false
/-- examples/tests/11-ranap.rs:2295-2303 -/
def PositionData : Ty := .sequence true 2 (.required false PositioningDataDiscriminator (.optional 0 PositioningDataSet (.optional 1 PositionDataIE_Extensions .nil)))
/-- examples/tests/11-ranap.rs:6831-6833 -/
def LastKnownServiceAreaIE_Extensions_Entry : Ty := .sequence false 0 .nil
/-- examples/tests/11-ranap.rs:6835-6842 -/
def LastKnownServiceAreaIE_Extensions : Ty := .sequenceOf (some 1) (some 65535) false LastKnownServiceAreaIE_Extensions_Entry
/-- examples/tests/11-ranap.rs:6827-6829 -/
def INTEGER_42 : Ty := .integer .u16 (some 0) (some 32767) false
/-- examples/tests/11-ranap.rs:1401-1408 -/
def LastKnownServiceArea : Ty := .sequence true 1 (.required false SAI (.required false INTEGER_42 (.optional 0 LastKnownServiceAreaIE_Extensions .nil)))
/-- examples/tests/11-ranap.rs:7093-7110 -/
def LocationReportProtocolExtensions_EntryExtensionValue : Ty := .openType (.cons 122 false AccuracyFulfilmentIndicator (.cons 283 false BarometricPressure (.cons 285 false CivicAddress (.cons 97 false LastKnownServiceArea (.cons 119 false PositionData (.cons 120 false PositionDataSpecificToGERANIuMode (.cons 165 false VelocityEstimate .nil)))))))
/-- examples/tests/11-ranap.rs:7112-7119 -/
def LocationReportProtocolExtensions_Entry : Ty := .sequence false 0 (.required true ProtocolExtensionID (.required false Criticality (.required false LocationReportProtocolExtensions_EntryExtensionValue .nil)))
/-- examples/tests/11-ranap.rs:7121-7128 -/
def LocationReportProtocolExtensions : Ty := .sequenceOf (some 1) (some 65535) false LocationReportProtocolExtensions_Entry
/-- examples/tests/11-ranap.rs:7064-7073 -/
def LocationReportProtocolIEs_EntryValue : Ty := .openType (.cons 0 false AreaIdentity (.cons 4 false Cause (.cons 57 false RequestType .nil)))
/-- examples/tests/11-ranap.rs:7075-7082 -/
def LocationReportProtocolIEs_Entry : Ty := .sequence false 0 (.required true ProtocolIE_ID (.required false Criticality (.required false LocationReportProtocolIEs_EntryValue .nil)))
/-- examples/tests/11-ranap.rs:7084-7091 -/
def LocationReportProtocolIEs : Ty := .sequenceOf (some 0) (some 65535) false LocationReportProtocolIEs_Entry
/-- examples/tests/11-ranap.rs:1496-1502 -/
def LocationReport : Ty := .sequence true 1 (.required false LocationReportProtocolIEs (.optional 0 LocationReportProtocolExtensions .nil))
/-- examples/tests/11-ranap.rs:3515-3522 -/
def RequestedGANSSAssistanceData : Ty := .octetstring (some 1) (some 201) false
/-- examples/tests/11-ranap.rs:1479-1481 -/
def LocationRelatedDataRequestTypeSpecificToGERANIuMode : Ty := .enumerated .u8 (some 0) (some 2) true
/-- examples/tests/11-ranap.rs:6977-6986 -/
def LocationRelatedDataRequestProtocolExtensions_EntryExtensionValue : Ty := .openType (.cons 115 false LocationRelatedDataRequestTypeSpecificToGERANIuMode (.cons 185 false RequestedGANSSAssistanceData .nil))
/-- examples/tests/11-ranap.rs:6988-6995 -/
def LocationRelatedDataRequestProtocolExtensions_Entry : Ty := .sequence false 0 (.required true ProtocolExtensionID (.required false Criticality (.required false LocationRelatedDataRequestProtocolExtensions_EntryExtensionValue .nil)))
/-- examples/tests/11-ranap.rs:6997-7006 -/
def LocationRelatedDataRequestProtocolExtensions : Ty := .sequenceOf (some 1) (some 65535) false LocationRelatedDataRequestProtocolExtensions_Entry
/-- examples/tests/11-ranap.rs:3524-3531 -/
def RequestedGPSAssistanceData : Ty := .octetstring (some 1) (some 38) false
/-- examples/tests/11-ranap.rs:3533-3535 -/
def RequestedLocationRelatedDataType : Ty := .enumerated .u8 (some 0) (some 3) true
/-- examples/tests/11-ranap.rs:1471-1477 -/
def LocationRelatedDataRequestType : Ty := .sequence true 1 (.required false RequestedLocationRelatedDataType (.optional 0 RequestedGPSAssistanceData .nil))
/-- examples/tests/11-ranap.rs:6950-6955 -/
def LocationRelatedDataRequestProtocolIEs_EntryValue : Ty := .openType (.cons 95 false LocationRelatedDataRequestType .nil)
/-- examples/tests/11-ranap.rs:6957-6964 -/
def LocationRelatedDataRequestProtocolIEs_Entry : Ty := .sequence false 0 (.required true ProtocolIE_ID (.required false Criticality (.required false LocationRelatedDataRequestProtocolIEs_EntryValue .nil)))
/-- examples/tests/11-ranap.rs:6966-6975 -/
def LocationRelatedDataRequestProtocolIEs : Ty := .sequenceOf (some 0) (some 65535) false LocationRelatedDataRequestProtocolIEs_Entry
/-- examples/tests/11-ranap.rs:1463-1469 -/
def LocationRelatedDataRequest : Ty := .sequence true 1 (.required false LocationRelatedDataRequestProtocolIEs (.optional 0 LocationRelatedDataRequestProtocolExtensions .nil))
/-- examples/tests/11-ranap.rs:6742-6744 -/
def Iu_ReleaseRequestProtocolExtensions_Entry : Ty := .sequence false 0 .nil
/-- examples/tests/11-ranap.rs:6746-6753 -/
def Iu_ReleaseRequestProtocolExtensions : Ty := .sequenceOf (some 1) (some 65535) false Iu_ReleaseRequestProtocolExtensions_Entry
/-- examples/tests/11-ranap.rs:6717-6722 -/
def Iu_ReleaseRequestProtocolIEs_EntryValue : Ty := .openType (.cons 4 false Cause .nil)
/-- examples/tests/11-ranap.rs:6724-6731 -/
def Iu_ReleaseRequestProtocolIEs_Entry : Ty := .sequence false 0 (.required true ProtocolIE_ID (.required false Criticality (.required false Iu_ReleaseRequestProtocolIEs_EntryValue .nil)))
/-- examples/tests/11-ranap.rs:6733-6740 -/
def Iu_ReleaseRequestProtocolIEs : Ty := .sequenceOf (some 0) (some 65535) false Iu_ReleaseRequestProtocolIEs_Entry
/-- examples/tests/11-ranap.rs:1307-1313 -/
def Iu_ReleaseRequest : Ty := .sequence true 1 (.required false Iu_ReleaseRequestProtocolIEs (.optional 0 Iu_ReleaseRequestProtocolExtensions .nil))
/-- examples/tests/11-ranap.rs:2155-2157 -/
def Out_Of_UTRAN : Ty := .enumerated .u8 (some 0) (some 0) true
/-- examples/tests/11-ranap.rs:6644-6653 -/
def Iu_ReleaseCommandProtocolExtensions_EntryExtensionValue : Ty := .openType (.cons 252 false End_Of_CSFB (.cons 277 false PLMNidentity (.cons 254 false Out_Of_UTRAN .nil)))
/-- examples/tests/11-ranap.rs:6655-6662 -/
def Iu_ReleaseCommandProtocolExtensions_Entry : Ty := .sequence false 0 (.required true ProtocolExtensionID (.required false Criticality (.required false Iu_ReleaseCommandProtocolExtensions_EntryExtensionValue .nil)))
/-- examples/tests/11-ranap.rs:6664-6671 -/
def Iu_ReleaseCommandProtocolExtensions : Ty := .sequenceOf (some 1) (some 65535) false Iu_ReleaseCommandProtocolExtensions_Entry
/-- examples/tests/11-ranap.rs:6619-6624 -/
def Iu_ReleaseCommandProtocolIEs_EntryValue : Ty := .openType (.cons 4 false Cause .nil)
/-- examples/tests/11-ranap.rs:6626-6633 -/
def Iu_ReleaseCommandProtocolIEs_Entry : Ty := .sequence false 0 (.required true ProtocolIE_ID (.required false Criticality (.required false Iu_ReleaseCommandProtocolIEs_EntryValue .nil)))
/-- examples/tests/11-ranap.rs:6635-6642 -/
def Iu_ReleaseCommandProtocolIEs : Ty := .sequenceOf (some 0) (some 65535) false Iu_ReleaseCommandProtocolIEs_Entry
/-- examples/tests/11-ranap.rs:1291-1297 -/
def Iu_ReleaseCommand : Ty := .sequence true 1 (.required false Iu_ReleaseCommandProtocolIEs (.optional 0 Iu_ReleaseCommandProtocolExtensions .nil))
/-- examples/tests/11-ranap.rs:6462-6563 -/
def InitiatingMessageValue : Ty := .openType (.cons 26 false CN_DeactivateTrace (.cons 16 false CN_InvokeTrace (.cons 15 false CommonID (.cons 7 false DataVolumeReportRequest (.cons 34 false DirectInformationTransfer (.cons 20 false DirectTransfer (.cons 22 false ErrorIndication (.cons 24 false ForwardSRNS_Context (.cons 31 false InformationTransferIndication (.cons 19 false InitialUE_Message (.cons 1 false Iu_ReleaseCommand (.cons 11 false Iu_ReleaseRequest (.cons 30 false LocationRelatedDataRequest (.cons 18 false LocationReport (.cons 17 false LocationReportingControl (.cons 40 false MBMSCNDe_RegistrationRequest (.cons 41 false MBMSRABEstablishmentIndication (.cons 42 false MBMSRABReleaseRequest (.cons 39 false MBMSRegistrationRequest (.cons 35 false MBMSSessionStart (.cons 37 false MBMSSessionStop (.cons 36 false MBMSSessionUpdate (.cons 38 false MBMSUELinkingRequest (.cons 21 false Overload (.cons 14 false Paging (.cons 0 false RAB_AssignmentRequest (.cons 29 false RAB_ModifyRequest (.cons 10 false RAB_ReleaseRequest (.cons 28 false RANAP_RelocationInformation (.cons 45 false RANAP_EnhancedRelocationInformationRequest (.cons 4 false RelocationCancel (.cons 13 false RelocationComplete (.cons 12 false RelocationDetect (.cons 2 false RelocationRequired (.cons 3 false RelocationRequest (.cons 49 false RerouteNASRequest (.cons 9 false Reset (.cons 27 false ResetResource (.cons 5 false SRNS_ContextRequest (.cons 23 false SRNS_DataForwardCommand (.cons 46 false SRVCC_CSKeysRequest (.cons 6 false SecurityModeCommand (.cons 32 false UESpecificInformationIndication (.cons 47 false UeRadioCapabilityMatchRequest (.cons 48 false UeRegistrationQueryRequest (.cons 33 false UplinkInformationExchangeRequest (.cons 43 false EnhancedRelocationCompleteRequest (.cons 44 false EnhancedRelocationCompleteConfirm (.cons 25 false PrivateMessage .nil)))))))))))))))))))))))))))))))))))))))))))))))))
/-- examples/tests/11-ranap.rs:1234-1241 -/
def InitiatingMessage : Ty := .sequence false 0 (.required true ProcedureCode (.required false Criticality (.required false InitiatingMessageValue .nil)))
/-- examples/tests/11-ranap.rs:6580-6582 -/
def InterSystemInformation_TransparentContainerIE_Extensions_Entry : Ty := .sequence false 0 .nil
/-- examples/tests/11-ranap.rs:6584-6593 -/
def InterSystemInformation_TransparentContainerIE_Extensions : Ty := .sequenceOf (some 1) (some 65535) false InterSystemInformation_TransparentContainerIE_Extensions_Entry
/-- examples/tests/11-ranap.rs:1265-1274 -/
def InterSystemInformation_TransparentContainer : Ty := .sequence true 3 (.optional 0 CellLoadInformation (.optional 1 CellLoadInformation (.optional 2 InterSystemInformation_TransparentContainerIE_Extensions .nil)))
/-- examples/tests/11-ranap.rs:6702-6704 -/
def Iu_ReleaseCompleteProtocolExtensions_Entry : Ty := .sequence false 0 .nil
/-- examples/tests/11-ranap.rs:6706-6715 -/
def Iu_ReleaseCompleteProtocolExtensions : Ty := .sequenceOf (some 1) (some 65535) false Iu_ReleaseCompleteProtocolExtensions_Entry
/-- examples/tests/11-ranap.rs:9270-9272 -/
def RAB_ReleasedItem_IuRelCompIE_Extensions_Entry : Ty := .sequence false 0 .nil
/-- examples/tests/11-ranap.rs:9274-9283 -/
def RAB_ReleasedItem_IuRelCompIE_Extensions : Ty := .sequenceOf (some 1) (some 65535) false RAB_ReleasedItem_IuRelCompIE_Extensions_Entry
/-- examples/tests/11-ranap.rs:2745-2755 -/
def RAB_ReleasedItem_IuRelComp : Ty := .sequence true 3 (.required false RAB_ID (.optional 0 DL_GTP_PDU_SequenceNumber (.optional 1 UL_GTP_PDU_SequenceNumber (.optional 2 RAB_ReleasedItem_IuRelCompIE_Extensions .nil))))
/-- examples/tests/11-ranap.rs:9310-9315 -/
def RAB_ReleasedList_IuRelComp_Entry_EntryValue : Ty := .openType (.cons 87 false RAB_ReleasedItem_IuRelComp .nil)
/-- examples/tests/11-ranap.rs:9317-9324 -/
def RAB_ReleasedList_IuRelComp_Entry_Entry : Ty := .sequence false 0 (.required true ProtocolIE_ID (.required false Criticality (.required false RAB_ReleasedList_IuRelComp_Entry_EntryValue .nil)))
/-- examples/tests/11-ranap.rs:9326-9333 -/
def RAB_ReleasedList_IuRelComp_Entry : Ty := .sequenceOf (some 0) (some 65535) false RAB_ReleasedList_IuRelComp_Entry_Entry
/-- examples/tests/11-ranap.rs:2766-2773 -/
def RAB_ReleasedList_IuRelComp : Ty := .sequenceOf (some 1) (some 256) false RAB_ReleasedList_IuRelComp_Entry
/-- examples/tests/11-ranap.rs:6673-6682 -/
def Iu_ReleaseCompleteProtocolIEs_EntryValue : Ty := .openType (.cons 9 false CriticalityDiagnostics (.cons 31 false RAB_DataVolumeReportList (.cons 44 false RAB_ReleasedList_IuRelComp .nil)))
/-- examples/tests/11-ranap.rs:6684-6691 -/
def Iu_ReleaseCompleteProtocolIEs_Entry : Ty := .sequence false 0 (.required true ProtocolIE_ID (.required false Criticality (.required false Iu_ReleaseCompleteProtocolIEs_EntryValue .nil)))
/-- examples/tests/11-ranap.rs:6693-6700 -/
def Iu_ReleaseCompleteProtocolIEs : Ty := .sequenceOf (some 0) (some 65535) false Iu_ReleaseCompleteProtocolIEs_Entry
/-- examples/tests/11-ranap.rs:1299-1305 -/
def Iu_ReleaseComplete : Ty := .sequence true 1 (.required false Iu_ReleaseCompleteProtocolIEs (.optional 0 Iu_ReleaseCompleteProtocolExtensions .nil))
/-- examples/tests/11-ranap.rs:1345-1347 -/
def L3_Information : Ty := .octetstring none none false
/-- examples/tests/11-ranap.rs:4098-4100 -/
def Time_UE_StayedInCell_EnhancedGranularity : Ty := .integer .u16 (some 0) (some 40950) false
/-- examples/tests/11-ranap.rs:6844-6851 -/
def LastVisitedUTRANCell_ItemIE_Extensions_EntryExtensionValue : Ty := .openType (.cons 257 false Cause (.cons 253 false Time_UE_StayedInCell_EnhancedGranularity .nil))
/-- examples/tests/11-ranap.rs:6853-6860 -/
def LastVisitedUTRANCell_ItemIE_Extensions_Entry : Ty := .sequence false 0 (.required true ProtocolExtensionID (.required false Criticality (.required false LastVisitedUTRANCell_ItemIE_Extensions_EntryExtensionValue .nil)))
/-- examples/tests/11-ranap.rs:6862-6871 -/
def LastVisitedUTRANCell_ItemIE_Extensions : Ty := .sequenceOf (some 1) (some 65535) false LastVisitedUTRANCell_ItemIE_Extensions_Entry
/-- examples/tests/11-ranap.rs:4094-4096 -/
def Time_UE_StayedInCell : Ty := .integer .u16 (some 0) (some 4095) false
/-- examples/tests/11-ranap.rs:1410-1418 -/
def LastVisitedUTRANCell_Item : Ty := .sequence true 1 (.required false UTRAN_CellID (.required false CellType (.required false Time_UE_StayedInCell (.optional 0 LastVisitedUTRANCell_ItemIE_Extensions .nil))))
/-- examples/tests/11-ranap.rs:6923-6928 -/
def LocationRelatedDataFailureProtocolExtensions_EntryExtensionValue : Ty := .openType (.cons 9 false CriticalityDiagnostics .nil)
/-- examples/tests/11-ranap.rs:6930-6937 -/
def LocationRelatedDataFailureProtocolExtensions_Entry : Ty := .sequence false 0 (.required true ProtocolExtensionID (.required false Criticality (.required false LocationRelatedDataFailureProtocolExtensions_EntryExtensionValue .nil)))
/-- examples/tests/11-ranap.rs:6939-6948 -/
def LocationRelatedDataFailureProtocolExtensions : Ty := .sequenceOf (some 1) (some 65535) false LocationRelatedDataFailureProtocolExtensions_Entry
/-- examples/tests/11-ranap.rs:6896-6901 -/
def LocationRelatedDataFailureProtocolIEs_EntryValue : Ty := .openType (.cons 4 false Cause .nil)
/-- examples/tests/11-ranap.rs:6903-6910 -/
def LocationRelatedDataFailureProtocolIEs_Entry : Ty := .sequence false 0 (.required true ProtocolIE_ID (.required false Criticality (.required false LocationRelatedDataFailureProtocolIEs_EntryValue .nil)))
/-- examples/tests/11-ranap.rs:6912-6921 -/
def LocationRelatedDataFailureProtocolIEs : Ty := .sequenceOf (some 0) (some 65535) false LocationRelatedDataFailureProtocolIEs_Entry
/-- examples/tests/11-ranap.rs:1455-1461 -/
def LocationRelatedDataFailure : Ty := .sequence true 1 (.required false LocationRelatedDataFailureProtocolIEs (.optional 0 LocationRelatedDataFailureProtocolExtensions .nil))
/-- examples/tests/11-ranap.rs:7035-7042 -/
def LocationRelatedDataResponseProtocolExtensions_EntryExtensionValue : Ty := .openType (.cons 186 false BroadcastAssistanceDataDecipheringKeys (.cons 9 false CriticalityDiagnostics .nil))
/-- examples/tests/11-ranap.rs:7044-7051 -/
def LocationRelatedDataResponseProtocolExtensions_Entry : Ty := .sequence false 0 (.required true ProtocolExtensionID (.required false Criticality (.required false LocationRelatedDataResponseProtocolExtensions_EntryExtensionValue .nil)))
/-- examples/tests/11-ranap.rs:7053-7062 -/
def LocationRelatedDataResponseProtocolExtensions : Ty := .sequenceOf (some 1) (some 65535) false LocationRelatedDataResponseProtocolExtensions_Entry
/-- examples/tests/11-ranap.rs:7008-7013 -/
def LocationRelatedDataResponseProtocolIEs_EntryValue : Ty := .openType (.cons 94 false BroadcastAssistanceDataDecipheringKeys .nil)
/-- examples/tests/11-ranap.rs:7015-7022 -/
def LocationRelatedDataResponseProtocolIEs_Entry : Ty := .sequence false 0 (.required true ProtocolIE_ID (.required false Criticality (.required false LocationRelatedDataResponseProtocolIEs_EntryValue .nil)))
/-- examples/tests/11-ranap.rs:7024-7033 -/
def LocationRelatedDataResponseProtocolIEs : Ty := .sequenceOf (some 0) (some 65535) false LocationRelatedDataResponseProtocolIEs_Entry
/-- examples/tests/11-ranap.rs:1488-1494 -/
def LocationRelatedDataResponse : Ty := .sequence true 1 (.required false LocationRelatedDataResponseProtocolIEs (.optional 0 LocationRelatedDataResponseProtocolExtensions .nil))
/-- examples/tests/11-ranap.rs:7346-7351 -/
def MBMSCNDe_RegistrationResponseProtocolExtensions_EntryExtensionValue : Ty := .openType (.cons 171 false ExtendedRNC_ID .nil)
/-- examples/tests/11-ranap.rs:7353-7360 -/
def MBMSCNDe_RegistrationResponseProtocolExtensions_Entry : Ty := .sequence false 0 (.required true ProtocolExtensionID (.required false Criticality (.required false MBMSCNDe_RegistrationResponseProtocolExtensions_EntryExtensionValue .nil)))
/-- examples/tests/11-ranap.rs:7362-7371 -/
def MBMSCNDe_RegistrationResponseProtocolExtensions : Ty := .sequenceOf (some 1) (some 65535) false MBMSCNDe_RegistrationResponseProtocolExtensions_Entry
/-- examples/tests/11-ranap.rs:7313-7324 -/
def MBMSCNDe_RegistrationResponseProtocolIEs_EntryValue : Ty := .openType (.cons 4 false Cause (.cons 9 false CriticalityDiagnostics (.cons 86 false GlobalRNC_ID (.cons 153 false TMGI .nil))))
/-- examples/tests/11-ranap.rs:7326-7333 -/
def MBMSCNDe_RegistrationResponseProtocolIEs_Entry : Ty := .sequence false 0 (.required true ProtocolIE_ID (.required false Criticality (.required false MBMSCNDe_RegistrationResponseProtocolIEs_EntryValue .nil)))
/-- examples/tests/11-ranap.rs:7335-7344 -/
def MBMSCNDe_RegistrationResponseProtocolIEs : Ty := .sequenceOf (some 0) (some 65535) false MBMSCNDe_RegistrationResponseProtocolIEs_Entry
/-- examples/tests/11-ranap.rs:1738-1744 -/
def MBMSCNDe_RegistrationResponse : Ty := .sequence true 1 (.required false MBMSCNDe_RegistrationResponseProtocolIEs (.optional 0 MBMSCNDe_RegistrationResponseProtocolExtensions .nil))
/-- examples/tests/11-ranap.rs:7457-7459 -/
def MBMSRABReleaseProtocolExtensions_Entry : Ty := .sequence false 0 .nil
/-- examples/tests/11-ranap.rs:7461-7468 -/
def MBMSRABReleaseProtocolExtensions : Ty := .sequenceOf (some 1) (some 65535) false MBMSRABReleaseProtocolExtensions_Entry
/-- examples/tests/11-ranap.rs:7430-7437 -/
def MBMSRABReleaseProtocolIEs_EntryValue : Ty := .openType (.cons 4 false Cause (.cons 9 false CriticalityDiagnostics .nil))
/-- examples/tests/11-ranap.rs:7439-7446 -/
def MBMSRABReleaseProtocolIEs_Entry : Ty := .sequence false 0 (.required true ProtocolIE_ID (.required false Criticality (.required false MBMSRABReleaseProtocolIEs_EntryValue .nil)))
/-- examples/tests/11-ranap.rs:7448-7455 -/
def MBMSRABReleaseProtocolIEs : Ty := .sequenceOf (some 0) (some 65535) false MBMSRABReleaseProtocolIEs_Entry
/-- examples/tests/11-ranap.rs:1796-1802 -/
def MBMSRABRelease : Ty := .sequence true 1 (.required false MBMSRABReleaseProtocolIEs (.optional 0 MBMSRABReleaseProtocolExtensions .nil))
/-- examples/tests/11-ranap.rs:7497-7499 -/
def MBMSRABReleaseFailureProtocolExtensions_Entry : Ty := .sequence false 0 .nil
/-- examples/tests/11-ranap.rs:7501-7510 -/
def MBMSRABReleaseFailureProtocolExtensions : Ty := .sequenceOf (some 1) (some 65535) false MBMSRABReleaseFailureProtocolExtensions_Entry
/-- examples/tests/11-ranap.rs:7470-7477 -/
def MBMSRABReleaseFailureProtocolIEs_EntryValue : Ty := .openType (.cons 4 false Cause (.cons 9 false CriticalityDiagnostics .nil))
/-- examples/tests/11-ranap.rs:7479-7486 -/
def MBMSRABReleaseFailureProtocolIEs_Entry : Ty := .sequence false 0 (.required true ProtocolIE_ID (.required false Criticality (.required false MBMSRABReleaseFailureProtocolIEs_EntryValue .nil)))
/-- examples/tests/11-ranap.rs:7488-7495 -/
def MBMSRABReleaseFailureProtocolIEs : Ty := .sequenceOf (some 0) (some 65535) false MBMSRABReleaseFailureProtocolIEs_Entry
/-- examples/tests/11-ranap.rs:1804-1810 -/
def MBMSRABReleaseFailure : Ty := .sequence true 1 (.required false MBMSRABReleaseFailureProtocolIEs (.optional 0 MBMSRABReleaseFailureProtocolExtensions .nil))
/-- examples/tests/11-ranap.rs:7583-7585 -/
def MBMSRegistrationFailureProtocolExtensions_Entry : Ty := .sequence false 0 .nil
/-- examples/tests/11-ranap.rs:7587-7596 -/
def MBMSRegistrationFailureProtocolExtensions : Ty := .sequenceOf (some 1) (some 65535) false MBMSRegistrationFailureProtocolExtensions_Entry
/-- examples/tests/11-ranap.rs:7552-7563 -/
def MBMSRegistrationFailureProtocolIEs_EntryValue : Ty := .openType (.cons 4 false Cause (.cons 9 false CriticalityDiagnostics (.cons 96 false GlobalCN_ID (.cons 153 false TMGI .nil))))
/-- examples/tests/11-ranap.rs:7565-7572 -/
def MBMSRegistrationFailureProtocolIEs_Entry : Ty := .sequence false 0 (.required true ProtocolIE_ID (.required false Criticality (.required false MBMSRegistrationFailureProtocolIEs_EntryValue .nil)))
/-- examples/tests/11-ranap.rs:7574-7581 -/
def MBMSRegistrationFailureProtocolIEs : Ty := .sequenceOf (some 0) (some 65535) false MBMSRegistrationFailureProtocolIEs_Entry
/-- examples/tests/11-ranap.rs:1820-1826 -/
def MBMSRegistrationFailure : Ty := .sequence true 1 (.required false MBMSRegistrationFailureProtocolIEs (.optional 0 MBMSRegistrationFailureProtocolExtensions .nil))
/-- examples/tests/11-ranap.rs:7687-7689 -/
def MBMSRegistrationResponseProtocolExtensions_Entry : Ty := .sequence false 0 .nil
/-- examples/tests/11-ranap.rs:7691-7700 -/
def MBMSRegistrationResponseProtocolExtensions : Ty := .sequenceOf (some 1) (some 65535) false MBMSRegistrationResponseProtocolExtensions_Entry
/-- examples/tests/11-ranap.rs:7658-7667 -/
def MBMSRegistrationResponseProtocolIEs_EntryValue : Ty := .openType (.cons 9 false CriticalityDiagnostics (.cons 96 false GlobalCN_ID (.cons 153 false TMGI .nil)))
/-- examples/tests/11-ranap.rs:7669-7676 -/
def MBMSRegistrationResponseProtocolIEs_Entry : Ty := .sequence false 0 (.required true ProtocolIE_ID (.required false Criticality (.required false MBMSRegistrationResponseProtocolIEs_EntryValue .nil)))
/-- examples/tests/11-ranap.rs:7678-7685 -/
def MBMSRegistrationResponseProtocolIEs : Ty := .sequenceOf (some 0) (some 65535) false MBMSRegistrationResponseProtocolIEs_Entry
/-- examples/tests/11-ranap.rs:1844-1850 -/
def MBMSRegistrationResponse : Ty := .sequence true 1 (.required false MBMSRegistrationResponseProtocolIEs (.optional 0 MBMSRegistrationResponseProtocolExtensions .nil))
/-- examples/tests/11-ranap.rs:7809-7811 -/
def MBMSSessionStartFailureProtocolExtensions_Entry : Ty := .sequence false 0 .nil
/-- examples/tests/11-ranap.rs:7813-7822 -/
def MBMSSessionStartFailureProtocolExtensions : Ty := .sequenceOf (some 1) (some 65535) false MBMSSessionStartFailureProtocolExtensions_Entry
/-- examples/tests/11-ranap.rs:7782-7789 -/
def MBMSSessionStartFailureProtocolIEs_EntryValue : Ty := .openType (.cons 4 false Cause (.cons 9 false CriticalityDiagnostics .nil))
/-- examples/tests/11-ranap.rs:7791-7798 -/
def MBMSSessionStartFailureProtocolIEs_Entry : Ty := .sequence false 0 (.required true ProtocolIE_ID (.required false Criticality (.required false MBMSSessionStartFailureProtocolIEs_EntryValue .nil)))
/-- examples/tests/11-ranap.rs:7800-7807 -/
def MBMSSessionStartFailureProtocolIEs : Ty := .sequenceOf (some 0) (some 65535) false MBMSSessionStartFailureProtocolIEs_Entry
/-- examples/tests/11-ranap.rs:1876-1882 -/
def MBMSSessionStartFailure : Ty := .sequence true 1 (.required false MBMSSessionStartFailureProtocolIEs (.optional 0 MBMSSessionStartFailureProtocolExtensions .nil))
/-- examples/tests/11-ranap.rs:7853-7855 -/
def MBMSSessionStartResponseProtocolExtensions_Entry : Ty := .sequence false 0 .nil
/-- examples/tests/11-ranap.rs:7857-7866 -/
def MBMSSessionStartResponseProtocolExtensions : Ty := .sequenceOf (some 1) (some 65535) false MBMSSessionStartResponseProtocolExtensions_Entry
/-- examples/tests/11-ranap.rs:7824-7833 -/
def MBMSSessionStartResponseProtocolIEs_EntryValue : Ty := .openType (.cons 4 false Cause (.cons 9 false CriticalityDiagnostics (.cons 154 false TransportLayerInformation .nil)))
/-- examples/tests/11-ranap.rs:7835-7842 -/
def MBMSSessionStartResponseProtocolIEs_Entry : Ty := .sequence false 0 (.required true ProtocolIE_ID (.required false Criticality (.required false MBMSSessionStartResponseProtocolIEs_EntryValue .nil)))
/-- examples/tests/11-ranap.rs:7844-7851 -/
def MBMSSessionStartResponseProtocolIEs : Ty := .sequenceOf (some 0) (some 65535) false MBMSSessionStartResponseProtocolIEs_Entry
/-- examples/tests/11-ranap.rs:1884-1890 -/
def MBMSSessionStartResponse : Ty := .sequence true 1 (.required false MBMSSessionStartResponseProtocolIEs (.optional 0 MBMSSessionStartResponseProtocolExtensions .nil))
/-- examples/tests/11-ranap.rs:7933-7935 -/
def MBMSSessionStopResponseProtocolExtensions_Entry : Ty := .sequence false 0 .nil
/-- examples/tests/11-ranap.rs:7937-7946 -/
def MBMSSessionStopResponseProtocolExtensions : Ty := .sequenceOf (some 1) (some 65535) false MBMSSessionStopResponseProtocolExtensions_Entry
/-- examples/tests/11-ranap.rs:7906-7913 -/
def MBMSSessionStopResponseProtocolIEs_EntryValue : Ty := .openType (.cons 4 false Cause (.cons 9 false CriticalityDiagnostics .nil))
/-- examples/tests/11-ranap.rs:7915-7922 -/
def MBMSSessionStopResponseProtocolIEs_Entry : Ty := .sequence false 0 (.required true ProtocolIE_ID (.required false Criticality (.required false MBMSSessionStopResponseProtocolIEs_EntryValue .nil)))
/-- examples/tests/11-ranap.rs:7924-7931 -/
def MBMSSessionStopResponseProtocolIEs : Ty := .sequenceOf (some 0) (some 65535) false MBMSSessionStopResponseProtocolIEs_Entry
/-- examples/tests/11-ranap.rs:1900-1906 -/
def MBMSSessionStopResponse : Ty := .sequence true 1 (.required false MBMSSessionStopResponseProtocolIEs (.optional 0 MBMSSessionStopResponseProtocolExtensions .nil))
/-- examples/tests/11-ranap.rs:8017-8019 -/
def MBMSSessionUpdateFailureProtocolExtensions_Entry : Ty := .sequence false 0 .nil
/-- examples/tests/11-ranap.rs:8021-8030 -/
def MBMSSessionUpdateFailureProtocolExtensions : Ty := .sequenceOf (some 1) (some 65535) false MBMSSessionUpdateFailureProtocolExtensions_Entry
/-- examples/tests/11-ranap.rs:7988-7997 -/
def MBMSSessionUpdateFailureProtocolIEs_EntryValue : Ty := .openType (.cons 4 false Cause (.cons 9 false CriticalityDiagnostics (.cons 152 false SessionUpdateID .nil)))
/-- examples/tests/11-ranap.rs:7999-8006 -/
def MBMSSessionUpdateFailureProtocolIEs_Entry : Ty := .sequence false 0 (.required true ProtocolIE_ID (.required false Criticality (.required false MBMSSessionUpdateFailureProtocolIEs_EntryValue .nil)))
/-- examples/tests/11-ranap.rs:8008-8015 -/
def MBMSSessionUpdateFailureProtocolIEs : Ty := .sequenceOf (some 0) (some 65535) false MBMSSessionUpdateFailureProtocolIEs_Entry
/-- examples/tests/11-ranap.rs:1916-1922 -/
def MBMSSessionUpdateFailure : Ty := .sequence true 1 (.required false MBMSSessionUpdateFailureProtocolIEs (.optional 0 MBMSSessionUpdateFailureProtocolExtensions .nil))
/-- examples/tests/11-ranap.rs:8065-8067 -/
def MBMSSessionUpdateResponseProtocolExtensions_Entry : Ty := .sequence false 0 .nil
/-- examples/tests/11-ranap.rs:8069-8078 -/
def MBMSSessionUpdateResponseProtocolExtensions : Ty := .sequenceOf (some 1) (some 65535) false MBMSSessionUpdateResponseProtocolExtensions_Entry
/-- examples/tests/11-ranap.rs:8032-8043 -/
def MBMSSessionUpdateResponseProtocolIEs_EntryValue : Ty := .openType (.cons 4 false Cause (.cons 9 false CriticalityDiagnostics (.cons 152 false SessionUpdateID (.cons 154 false TransportLayerInformation .nil))))
/-- examples/tests/11-ranap.rs:8045-8052 -/
def MBMSSessionUpdateResponseProtocolIEs_Entry : Ty := .sequence false 0 (.required true ProtocolIE_ID (.required false Criticality (.required false MBMSSessionUpdateResponseProtocolIEs_EntryValue .nil)))
/-- examples/tests/11-ranap.rs:8054-8063 -/
def MBMSSessionUpdateResponseProtocolIEs : Ty := .sequenceOf (some 0) (some 65535) false MBMSSessionUpdateResponseProtocolIEs_Entry
/-- examples/tests/11-ranap.rs:1924-1930 -/
def MBMSSessionUpdateResponse : Ty := .sequence true 1 (.required false MBMSSessionUpdateResponseProtocolIEs (.optional 0 MBMSSessionUpdateResponseProtocolExtensions .nil))
/-- examples/tests/11-ranap.rs:8176-8178 -/
def MBMSUELinkingResponseProtocolExtensions_Entry : Ty := .sequence false 0 .nil
/-- examples/tests/11-ranap.rs:8180-8189 -/
def MBMSUELinkingResponseProtocolExtensions : Ty := .sequenceOf (some 1) (some 65535) false MBMSUELinkingResponseProtocolExtensions_Entry
/-- examples/tests/11-ranap.rs:12468-12470 -/
def UnsuccessfulLinking_IEs_EntryIE_Extensions_Entry : Ty := .sequence false 0 .nil
/-- examples/tests/11-ranap.rs:12472-12481 -/
def UnsuccessfulLinking_IEs_EntryIE_Extensions : Ty := .sequenceOf (some 1) (some 65535) false UnsuccessfulLinking_IEs_EntryIE_Extensions_Entry
/-- examples/tests/11-ranap.rs:12483-12490 -/
def UnsuccessfulLinking_IEs_Entry : Ty := .sequence true 1 (.required false TMGI (.required false Cause (.optional 0 UnsuccessfulLinking_IEs_EntryIE_Extensions .nil)))
/-- examples/tests/11-ranap.rs:4440-4447 -/
def UnsuccessfulLinking_IEs : Ty := .sequenceOf (some 1) (some 128) false UnsuccessfulLinking_IEs_Entry
/-- examples/tests/11-ranap.rs:8149-8156 -/
def MBMSUELinkingResponseProtocolIEs_EntryValue : Ty := .openType (.cons 9 false CriticalityDiagnostics (.cons 155 false UnsuccessfulLinking_IEs .nil))
/-- examples/tests/11-ranap.rs:8158-8165 -/
def MBMSUELinkingResponseProtocolIEs_Entry : Ty := .sequence false 0 (.required true ProtocolIE_ID (.required false Criticality (.required false MBMSUELinkingResponseProtocolIEs_EntryValue .nil)))
/-- examples/tests/11-ranap.rs:8167-8174 -/
def MBMSUELinkingResponseProtocolIEs : Ty := .sequenceOf (some 0) (some 65535) false MBMSUELinkingResponseProtocolIEs_Entry
/-- examples/tests/11-ranap.rs:1950-1956 -/
def MBMSUELinkingResponse : Ty := .sequence true 1 (.required false MBMSUELinkingResponseProtocolIEs (.optional 0 MBMSUELinkingResponseProtocolExtensions .nil))
/-- examples/tests/11-ranap.rs:2079-2081 -/
def NewBSS_To_OldBSS_Information : Ty := .octetstring none none false
/-- examples/tests/11-ranap.rs:12453-12455 -/
def UeRegistrationQueryResponseProtocolExtensions_Entry : Ty := .sequence false 0 .nil
/-- examples/tests/11-ranap.rs:12457-12466 -/
def UeRegistrationQueryResponseProtocolExtensions : Ty := .sequenceOf (some 1) (some 65535) false UeRegistrationQueryResponseProtocolExtensions_Entry
/-- examples/tests/11-ranap.rs:12191-12193 -/
def UE_IsNotServedIE_Extensions_Entry : Ty := .sequence false 0 .nil
/-- examples/tests/11-ranap.rs:12195-12202 -/
def UE_IsNotServedIE_Extensions : Ty := .sequenceOf (some 1) (some 65535) false UE_IsNotServedIE_Extensions_Entry
/-- examples/tests/11-ranap.rs:4305-4311 -/
def UE_IsNotServed : Ty := .sequence true 1 (.required false PermanentNAS_UE_ID (.optional 0 UE_IsNotServedIE_Extensions .nil))
/-- examples/tests/11-ranap.rs:12204-12206 -/
def UE_IsServedIE_Extensions_Entry : Ty := .sequence false 0 .nil
/-- examples/tests/11-ranap.rs:12208-12215 -/
def UE_IsServedIE_Extensions : Ty := .sequenceOf (some 1) (some 65535) false UE_IsServedIE_Extensions_Entry
/-- examples/tests/11-ranap.rs:4313-4320 -/
def UE_IsServed : Ty := .sequence true 1 (.required false PermanentNAS_UE_ID (.required false PLMNidentity (.optional 0 UE_IsServedIE_Extensions .nil)))
/-- examples/tests/11-ranap.rs:4326-4333 -/
def UERegistrationQueryResult : Ty := .choice 0 1 false (.cons 0 false UE_IsServed (.cons 1 false UE_IsNotServed .nil))
/-- examples/tests/11-ranap.rs:12426-12431 -/
def UeRegistrationQueryResponseProtocolIEs_EntryValue : Ty := .openType (.cons 281 false UERegistrationQueryResult .nil)
/-- examples/tests/11-ranap.rs:12433-12440 -/
def UeRegistrationQueryResponseProtocolIEs_Entry : Ty := .sequence false 0 (.required true ProtocolIE_ID (.required false Criticality (.required false UeRegistrationQueryResponseProtocolIEs_EntryValue .nil)))
/-- examples/tests/11-ranap.rs:12442-12451 -/
def UeRegistrationQueryResponseProtocolIEs : Ty := .sequenceOf (some 0) (some 65535) false UeRegistrationQueryResponseProtocolIEs_Entry
/-- examples/tests/11-ranap.rs:4432-4438 -/
def UeRegistrationQueryResponse : Ty := .sequence true 1 (.required false UeRegistrationQueryResponseProtocolIEs (.optional 0 UeRegistrationQueryResponseProtocolExtensions .nil))
/-- examples/tests/11-ranap.rs:12367-12369 -/
def UeRadioCapabilityMatchResponseProtocolExtensions_Entry : Ty := .sequence false 0 .nil
/-- examples/tests/11-ranap.rs:12371-12380 -/
def UeRadioCapabilityMatchResponseProtocolExtensions : Ty := .sequenceOf (some 1) (some 65535) false UeRadioCapabilityMatchResponseProtocolExtensions_Entry
/-- examples/tests/11-ranap.rs:4535-4537 -/
def VoiceSupportMatchIndicator : Ty := .enumerated .u8 (some 0) (some 1) true
/-- examples/tests/11-ranap.rs:12340-12345 -/
def UeRadioCapabilityMatchResponseProtocolIEs_EntryValue : Ty := .openType (.cons 258 false VoiceSupportMatchIndicator .nil)
/-- examples/tests/11-ranap.rs:12347-12354 -/
def UeRadioCapabilityMatchResponseProtocolIEs_Entry : Ty := .sequence false 0 (.required true ProtocolIE_ID (.required false Criticality (.required false UeRadioCapabilityMatchResponseProtocolIEs_EntryValue .nil)))
/-- examples/tests/11-ranap.rs:12356-12365 -/
def UeRadioCapabilityMatchResponseProtocolIEs : Ty := .sequenceOf (some 0) (some 65535) false UeRadioCapabilityMatchResponseProtocolIEs_Entry
/-- examples/tests/11-ranap.rs:4416-4422 -/
def UeRadioCapabilityMatchResponse : Ty := .sequence true 1 (.required false UeRadioCapabilityMatchResponseProtocolIEs (.optional 0 UeRadioCapabilityMatchResponseProtocolExtensions .nil))
/-- examples/tests/11-ranap.rs:11635-11637 -/
def SRVCC_CSKeysResponseProtocolExtensions_Entry : Ty := .sequence false 0 .nil
/-- examples/tests/11-ranap.rs:11639-11648 -/
def SRVCC_CSKeysResponseProtocolExtensions : Ty := .sequenceOf (some 1) (some 65535) false SRVCC_CSKeysResponseProtocolExtensions_Entry
/-- examples/tests/11-ranap.rs:11604-11615 -/
def SRVCC_CSKeysResponseProtocolIEs_EntryValue : Ty := .openType (.cons 9 false CriticalityDiagnostics (.cons 224 false EncryptionKey (.cons 225 false IntegrityProtectionKey (.cons 227 false SRVCC_Information .nil))))
/-- examples/tests/11-ranap.rs:11617-11624 -/
def SRVCC_CSKeysResponseProtocolIEs_Entry : Ty := .sequence false 0 (.required true ProtocolIE_ID (.required false Criticality (.required false SRVCC_CSKeysResponseProtocolIEs_EntryValue .nil)))
/-- examples/tests/11-ranap.rs:11626-11633 -/
def SRVCC_CSKeysResponseProtocolIEs : Ty := .sequenceOf (some 0) (some 65535) false SRVCC_CSKeysResponseProtocolIEs_Entry
/-- examples/tests/11-ranap.rs:3765-3771 -/
def SRVCC_CSKeysResponse : Ty := .sequence true 1 (.required false SRVCC_CSKeysResponseProtocolIEs (.optional 0 SRVCC_CSKeysResponseProtocolExtensions .nil))
/-- examples/tests/11-ranap.rs:8617-8622 -/
def RAB_AssignmentResponseProtocolExtensions_EntryExtensionValue : Ty := .openType (.cons 110 false GERAN_Iumode_RAB_FailedList_RABAssgntResponse .nil)
/-- examples/tests/11-ranap.rs:8624-8631 -/
def RAB_AssignmentResponseProtocolExtensions_Entry : Ty := .sequence false 0 (.required true ProtocolExtensionID (.required false Criticality (.required false RAB_AssignmentResponseProtocolExtensions_EntryExtensionValue .nil)))
/-- examples/tests/11-ranap.rs:8633-8642 -/
def RAB_AssignmentResponseProtocolExtensions : Ty := .sequenceOf (some 1) (some 65535) false RAB_AssignmentResponseProtocolExtensions_Entry
/-- examples/tests/11-ranap.rs:9679-9684 -/
def RAB_SetupOrModifiedItemIE_Extensions_EntryExtensionValue : Ty := .openType (.cons 90 false Ass_RAB_Parameters .nil)
/-- examples/tests/11-ranap.rs:9686-9693 -/
def RAB_SetupOrModifiedItemIE_Extensions_Entry : Ty := .sequence false 0 (.required true ProtocolExtensionID (.required false Criticality (.required false RAB_SetupOrModifiedItemIE_Extensions_EntryExtensionValue .nil)))
/-- examples/tests/11-ranap.rs:9695-9704 -/
def RAB_SetupOrModifiedItemIE_Extensions : Ty := .sequenceOf (some 1) (some 65535) false RAB_SetupOrModifiedItemIE_Extensions_Entry
/-- examples/tests/11-ranap.rs:2949-2961 -/
def RAB_SetupOrModifiedItem : Ty := .sequence true 4 (.required false RAB_ID (.optional 0 TransportLayerAddress (.optional 1 IuTransportAssociation (.optional 2 DataVolumeList (.optional 3 RAB_SetupOrModifiedItemIE_Extensions .nil)))))
/-- examples/tests/11-ranap.rs:9706-9711 -/
def RAB_SetupOrModifiedList_Entry_EntryValue : Ty := .openType (.cons 51 false RAB_SetupOrModifiedItem .nil)
/-- examples/tests/11-ranap.rs:9713-9720 -/
def RAB_SetupOrModifiedList_Entry_Entry : Ty := .sequence false 0 (.required true ProtocolIE_ID (.required false Criticality (.required false RAB_SetupOrModifiedList_Entry_EntryValue .nil)))
/-- examples/tests/11-ranap.rs:9722-9729 -/
def RAB_SetupOrModifiedList_Entry : Ty := .sequenceOf (some 0) (some 65535) false RAB_SetupOrModifiedList_Entry_Entry
/-- examples/tests/11-ranap.rs:2963-2970 -/
def RAB_SetupOrModifiedList : Ty := .sequenceOf (some 1) (some 256) false RAB_SetupOrModifiedList_Entry
/-- examples/tests/11-ranap.rs:9257-9259 -/
def RAB_ReleasedItemIE_Extensions_Entry : Ty := .sequence false 0 .nil
/-- examples/tests/11-ranap.rs:9261-9268 -/
def RAB_ReleasedItemIE_Extensions : Ty := .sequenceOf (some 1) (some 65535) false RAB_ReleasedItemIE_Extensions_Entry
/-- examples/tests/11-ranap.rs:2731-2743 -/
def RAB_ReleasedItem : Ty := .sequence true 4 (.required false RAB_ID (.optional 0 DataVolumeList (.optional 1 DL_GTP_PDU_SequenceNumber (.optional 2 UL_GTP_PDU_SequenceNumber (.optional 3 RAB_ReleasedItemIE_Extensions .nil)))))
/-- examples/tests/11-ranap.rs:9285-9290 -/
def RAB_ReleasedList_Entry_EntryValue : Ty := .openType (.cons 42 false RAB_ReleasedItem .nil)
/-- examples/tests/11-ranap.rs:9292-9299 -/
def RAB_ReleasedList_Entry_Entry : Ty := .sequence false 0 (.required true ProtocolIE_ID (.required false Criticality (.required false RAB_ReleasedList_Entry_EntryValue .nil)))
/-- examples/tests/11-ranap.rs:9301-9308 -/
def RAB_ReleasedList_Entry : Ty := .sequenceOf (some 0) (some 65535) false RAB_ReleasedList_Entry_Entry
/-- examples/tests/11-ranap.rs:2757-2764 -/
def RAB_ReleasedList : Ty := .sequenceOf (some 1) (some 256) false RAB_ReleasedList_Entry
/-- examples/tests/11-ranap.rs:2703-2703 -/
def RAB_ReleaseFailedList : Ty := RAB_FailedList
/-- examples/tests/11-ranap.rs:9141-9143 -/
def RAB_QueuedItemIE_Extensions_Entry : Ty := .sequence false 0 .nil
/-- examples/tests/11-ranap.rs:9145-9152 -/
def RAB_QueuedItemIE_Extensions : Ty := .sequenceOf (some 1) (some 65535) false RAB_QueuedItemIE_Extensions_Entry
/-- examples/tests/11-ranap.rs:2686-2692 -/
def RAB_QueuedItem : Ty := .sequence true 1 (.required false RAB_ID (.optional 0 RAB_QueuedItemIE_Extensions .nil))
/-- examples/tests/11-ranap.rs:9154-9159 -/
def RAB_QueuedList_Entry_EntryValue : Ty := .openType (.cons 37 false RAB_QueuedItem .nil)
/-- examples/tests/11-ranap.rs:9161-9168 -/
def RAB_QueuedList_Entry_Entry : Ty := .sequence false 0 (.required true ProtocolIE_ID (.required false Criticality (.required false RAB_QueuedList_Entry_EntryValue .nil)))
/-- examples/tests/11-ranap.rs:9170-9177 -/
def RAB_QueuedList_Entry : Ty := .sequenceOf (some 0) (some 65535) false RAB_QueuedList_Entry_Entry
/-- examples/tests/11-ranap.rs:2694-2701 -/
def RAB_QueuedList : Ty := .sequenceOf (some 1) (some 256) false RAB_QueuedList_Entry
/-- examples/tests/11-ranap.rs:8582-8597 -/
def RAB_AssignmentResponseProtocolIEs_EntryValue : Ty := .openType (.cons 9 false CriticalityDiagnostics (.cons 35 false RAB_FailedList (.cons 38 false RAB_QueuedList (.cons 39 false RAB_ReleaseFailedList (.cons 43 false RAB_ReleasedList (.cons 52 false RAB_SetupOrModifiedList .nil))))))
/-- examples/tests/11-ranap.rs:8599-8606 -/
def RAB_AssignmentResponseProtocolIEs_Entry : Ty := .sequence false 0 (.required true ProtocolIE_ID (.required false Criticality (.required false RAB_AssignmentResponseProtocolIEs_EntryValue .nil)))
/-- examples/tests/11-ranap.rs:8608-8615 -/
def RAB_AssignmentResponseProtocolIEs : Ty := .sequenceOf (some 0) (some 65535) false RAB_AssignmentResponseProtocolIEs_Entry
/-- examples/tests/11-ranap.rs:2420-2426 -/
def RAB_AssignmentResponse : Ty := .sequence true 1 (.required false RAB_AssignmentResponseProtocolIEs (.optional 0 RAB_AssignmentResponseProtocolExtensions .nil))
/-- examples/tests/11-ranap.rs:8283-8296 -/
def OutcomeValue : Ty := .openType (.cons 38 false MBMSUELinkingResponse (.cons 0 false RAB_AssignmentResponse (.cons 46 false SRVCC_CSKeysResponse (.cons 47 false UeRadioCapabilityMatchResponse (.cons 48 false UeRegistrationQueryResponse .nil)))))
/-- examples/tests/11-ranap.rs:2162-2169 -/
def Outcome : Ty := .sequence false 0 (.required true ProcedureCode (.required false Criticality (.required false OutcomeValue .nil)))
/-- examples/tests/11-ranap.rs:2353-2355 -/
def Presence : Ty := .enumerated .u8 (some 0) (some 2) false
/-- examples/tests/11-ranap.rs:8509-8511 -/
def OBJECT_IDENTIFIER_49 : Ty := .objectIdentifier
/-- examples/tests/11-ranap.rs:8505-8507 -/
def INTEGER_48 : Ty := .integer .u16 (some 0) (some 65535) false
/-- examples/tests/11-ranap.rs:2370-2377 -/
def PrivateIE_ID : Ty := .choice 0 1 false (.cons 0 false INTEGER_48 (.cons 1 false OBJECT_IDENTIFIER_49 .nil))
/-- examples/tests/11-ranap.rs:9962-9964 -/
def RABs_ContextFailedtoTransferItemIE_Extensions_Entry : Ty := .sequence false 0 .nil
/-- examples/tests/11-ranap.rs:9966-9975 -/
def RABs_ContextFailedtoTransferItemIE_Extensions : Ty := .sequenceOf (some 1) (some 65535) false RABs_ContextFailedtoTransferItemIE_Extensions_Entry
/-- examples/tests/11-ranap.rs:3081-3088 -/
def RABs_ContextFailedtoTransferItem : Ty := .sequence true 1 (.required false RAB_ID (.required false Cause (.optional 0 RABs_ContextFailedtoTransferItemIE_Extensions .nil)))
/-- examples/tests/11-ranap.rs:8644-8649 -/
def RAB_ContextFailedtoTransferList_Entry_EntryValue : Ty := .openType (.cons 84 false RABs_ContextFailedtoTransferItem .nil)
/-- examples/tests/11-ranap.rs:8651-8658 -/
def RAB_ContextFailedtoTransferList_Entry_Entry : Ty := .sequence false 0 (.required true ProtocolIE_ID (.required false Criticality (.required false RAB_ContextFailedtoTransferList_Entry_EntryValue .nil)))
/-- examples/tests/11-ranap.rs:8660-8669 -/
def RAB_ContextFailedtoTransferList_Entry : Ty := .sequenceOf (some 0) (some 65535) false RAB_ContextFailedtoTransferList_Entry_Entry
/-- examples/tests/11-ranap.rs:2438-2445 -/
def RAB_ContextFailedtoTransferList : Ty := .sequenceOf (some 1) (some 256) false RAB_ContextFailedtoTransferList_Entry
/-- examples/tests/11-ranap.rs:8940-8942 -/
def RAB_FailedItem_EnhRelocInfoResIE_Extensions_Entry : Ty := .sequence false 0 .nil
/-- examples/tests/11-ranap.rs:8944-8953 -/
def RAB_FailedItem_EnhRelocInfoResIE_Extensions : Ty := .sequenceOf (some 1) (some 65535) false RAB_FailedItem_EnhRelocInfoResIE_Extensions_Entry
/-- examples/tests/11-ranap.rs:2578-2586 -/
def RAB_FailedItem_EnhRelocInfoRes : Ty := .sequence true 1 (.required false CN_DomainIndicator (.required false RAB_ID (.required false Cause (.optional 0 RAB_FailedItem_EnhRelocInfoResIE_Extensions .nil))))
/-- examples/tests/11-ranap.rs:8980-8985 -/
def RAB_FailedList_EnhRelocInfoRes_Entry_EntryValue : Ty := .openType (.cons 198 false RAB_FailedItem_EnhRelocInfoRes .nil)
/-- examples/tests/11-ranap.rs:8987-8994 -/
def RAB_FailedList_EnhRelocInfoRes_Entry_Entry : Ty := .sequence false 0 (.required true ProtocolIE_ID (.required false Criticality (.required false RAB_FailedList_EnhRelocInfoRes_Entry_EntryValue .nil)))
/-- examples/tests/11-ranap.rs:8996-9005 -/
def RAB_FailedList_EnhRelocInfoRes_Entry : Ty := .sequenceOf (some 0) (some 65535) false RAB_FailedList_EnhRelocInfoRes_Entry_Entry
/-- examples/tests/11-ranap.rs:2597-2604 -/
def RAB_FailedList_EnhRelocInfoRes : Ty := .sequenceOf (some 1) (some 256) false RAB_FailedList_EnhRelocInfoRes_Entry
/-- examples/tests/11-ranap.rs:9335-9337 -/
def RAB_RelocationReleaseItemIE_Extensions_Entry : Ty := .sequence false 0 .nil
/-- examples/tests/11-ranap.rs:9339-9348 -/
def RAB_RelocationReleaseItemIE_Extensions : Ty := .sequenceOf (some 1) (some 65535) false RAB_RelocationReleaseItemIE_Extensions_Entry
/-- examples/tests/11-ranap.rs:2775-2781 -/
def RAB_RelocationReleaseItem : Ty := .sequence true 1 (.required false RAB_ID (.optional 0 RAB_RelocationReleaseItemIE_Extensions .nil))
/-- examples/tests/11-ranap.rs:9350-9355 -/
def RAB_RelocationReleaseList_Entry_EntryValue : Ty := .openType (.cons 45 false RAB_RelocationReleaseItem .nil)
/-- examples/tests/11-ranap.rs:9357-9364 -/
def RAB_RelocationReleaseList_Entry_Entry : Ty := .sequence false 0 (.required true ProtocolIE_ID (.required false Criticality (.required false RAB_RelocationReleaseList_Entry_EntryValue .nil)))
/-- examples/tests/11-ranap.rs:9366-9373 -/
def RAB_RelocationReleaseList_Entry : Ty := .sequenceOf (some 0) (some 65535) false RAB_RelocationReleaseList_Entry_Entry
/-- examples/tests/11-ranap.rs:2783-2790 -/
def RAB_RelocationReleaseList : Ty := .sequenceOf (some 1) (some 256) false RAB_RelocationReleaseList_Entry
/-- examples/tests/11-ranap.rs:9404-9406 -/
def RAB_SetupItem_EnhRelocInfoResIE_Extensions_Entry : Ty := .sequence false 0 .nil
/-- examples/tests/11-ranap.rs:9408-9417 -/
def RAB_SetupItem_EnhRelocInfoResIE_Extensions : Ty := .sequenceOf (some 1) (some 65535) false RAB_SetupItem_EnhRelocInfoResIE_Extensions_Entry
/-- examples/tests/11-ranap.rs:12001-12003 -/
def TNLInformationEnhRelInfoResIE_Extensions_Entry : Ty := .sequence false 0 .nil
/-- examples/tests/11-ranap.rs:12005-12014 -/
def TNLInformationEnhRelInfoResIE_Extensions : Ty := .sequenceOf (some 1) (some 65535) false TNLInformationEnhRelInfoResIE_Extensions_Entry
/-- examples/tests/11-ranap.rs:4018-4025 -/
def TNLInformationEnhRelInfoRes : Ty := .sequence true 1 (.required false TransportLayerAddress (.required false IuTransportAssociation (.optional 0 TNLInformationEnhRelInfoResIE_Extensions .nil)))
/-- examples/tests/11-ranap.rs:2815-2826 -/
def RAB_SetupItem_EnhRelocInfoRes : Ty := .sequence true 3 (.required false CN_DomainIndicator (.required false RAB_ID (.optional 0 TNLInformationEnhRelInfoRes (.optional 1 Ass_RAB_Parameters (.optional 2 RAB_SetupItem_EnhRelocInfoResIE_Extensions .nil)))))
/-- examples/tests/11-ranap.rs:9494-9503 -/
def RAB_SetupItem_RelocReqAckIE_Extensions_EntryExtensionValue : Ty := .openType (.cons 90 false Ass_RAB_Parameters (.cons 13 false IuTransportAssociation (.cons 67 false TransportLayerAddress .nil)))
/-- examples/tests/11-ranap.rs:9505-9512 -/
def RAB_SetupItem_RelocReqAckIE_Extensions_Entry : Ty := .sequence false 0 (.required true ProtocolExtensionID (.required false Criticality (.required false RAB_SetupItem_RelocReqAckIE_Extensions_EntryExtensionValue .nil)))
/-- examples/tests/11-ranap.rs:9514-9523 -/
def RAB_SetupItem_RelocReqAckIE_Extensions : Ty := .sequenceOf (some 1) (some 65535) false RAB_SetupItem_RelocReqAckIE_Extensions_Entry
/-- examples/tests/11-ranap.rs:2879-2889 -/
def RAB_SetupItem_RelocReqAck : Ty := .sequence true 3 (.required false RAB_ID (.optional 0 TransportLayerAddress (.optional 1 IuTransportAssociation (.optional 2 RAB_SetupItem_RelocReqAckIE_Extensions .nil))))
/-- examples/tests/11-ranap.rs:9550-9555 -/
def RAB_SetupList_EnhRelocInfoRes_Entry_EntryValue : Ty := .openType (.cons 195 false RAB_SetupItem_EnhRelocInfoRes .nil)
/-- examples/tests/11-ranap.rs:9557-9564 -/
def RAB_SetupList_EnhRelocInfoRes_Entry_Entry : Ty := .sequence false 0 (.required true ProtocolIE_ID (.required false Criticality (.required false RAB_SetupList_EnhRelocInfoRes_Entry_EntryValue .nil)))
/-- examples/tests/11-ranap.rs:9566-9573 -/
def RAB_SetupList_EnhRelocInfoRes_Entry : Ty := .sequenceOf (some 0) (some 65535) false RAB_SetupList_EnhRelocInfoRes_Entry_Entry
/-- examples/tests/11-ranap.rs:2900-2907 -/
def RAB_SetupList_EnhRelocInfoRes : Ty := .sequenceOf (some 1) (some 256) false RAB_SetupList_EnhRelocInfoRes_Entry
/-- examples/tests/11-ranap.rs:9654-9659 -/
def RAB_SetupList_RelocReqAck_Entry_EntryValue : Ty := .openType (.cons 48 false RAB_SetupItem_RelocReqAck .nil)
/-- examples/tests/11-ranap.rs:9661-9668 -/
def RAB_SetupList_RelocReqAck_Entry_Entry : Ty := .sequence false 0 (.required true ProtocolIE_ID (.required false Criticality (.required false RAB_SetupList_RelocReqAck_Entry_EntryValue .nil)))
/-- examples/tests/11-ranap.rs:9670-9677 -/
def RAB_SetupList_RelocReqAck_Entry : Ty := .sequenceOf (some 0) (some 65535) false RAB_SetupList_RelocReqAck_Entry_Entry
/-- examples/tests/11-ranap.rs:2940-2947 -/
def RAB_SetupList_RelocReqAck : Ty := .sequenceOf (some 1) (some 256) false RAB_SetupList_RelocReqAck_Entry
/-- examples/tests/11-ranap.rs:10131-10133 -/
def RANAP_EnhancedRelocationInformationResponseProtocolExtensions_Entry : Ty := .sequence false 0 .nil
/-- examples/tests/11-ranap.rs:10135-10144 -/
def RANAP_EnhancedRelocationInformationResponseProtocolExtensions : Ty := .sequenceOf (some 1) (some 65535) false RANAP_EnhancedRelocationInformationResponseProtocolExtensions_Entry
/-- examples/tests/11-ranap.rs:4404-4406 -/
def UeApplicationLayerMeasurementSupportIndication : Ty := .bitstring (some 8) (some 8) false
/-- examples/tests/11-ranap.rs:12054-12061 -/
def TargetRNC_ToSourceRNC_TransparentContainerIE_Extensions_EntryExtensionValue : Ty := .openType (.cons 295 false UeApplicationLayerMeasurementSupportIndication .nil)
/-- examples/tests/11-ranap.rs:12063-12071 -/
def TargetRNC_ToSourceRNC_TransparentContainerIE_Extensions_Entry : Ty := .sequence false 0 (.required true ProtocolExtensionID (.required false Criticality (.required false TargetRNC_ToSourceRNC_TransparentContainerIE_Extensions_EntryExtensionValue .nil)))
/-- examples/tests/11-ranap.rs:12073-12082 -/
def TargetRNC_ToSourceRNC_TransparentContainerIE_Extensions : Ty := .sequenceOf (some 1) (some 65535) false TargetRNC_ToSourceRNC_TransparentContainerIE_Extensions_Entry
/-- examples/tests/11-ranap.rs:4071-4079 -/
def TargetRNC_ToSourceRNC_TransparentContainer : Ty := .sequence true 2 (.required false RRC_Container (.optional 0 D_RNTI (.optional 1 TargetRNC_ToSourceRNC_TransparentContainerIE_Extensions .nil)))
/-- examples/tests/11-ranap.rs:10098-10109 -/
def RANAP_EnhancedRelocationInformationResponseProtocolIEs_EntryValue : Ty := .openType (.cons 9 false CriticalityDiagnostics (.cons 197 false RAB_FailedList_EnhRelocInfoRes (.cons 194 false RAB_SetupList_EnhRelocInfoRes (.cons 63 false TargetRNC_ToSourceRNC_TransparentContainer .nil))))
/-- examples/tests/11-ranap.rs:10111-10118 -/
def RANAP_EnhancedRelocationInformationResponseProtocolIEs_Entry : Ty := .sequence false 0 (.required true ProtocolIE_ID (.required false Criticality (.required false RANAP_EnhancedRelocationInformationResponseProtocolIEs_EntryValue .nil)))
/-- examples/tests/11-ranap.rs:10120-10129 -/
def RANAP_EnhancedRelocationInformationResponseProtocolIEs : Ty := .sequenceOf (some 0) (some 65535) false RANAP_EnhancedRelocationInformationResponseProtocolIEs_Entry
/-- examples/tests/11-ranap.rs:3142-3148 -/
def RANAP_EnhancedRelocationInformationResponse : Ty := .sequence true 1 (.required false RANAP_EnhancedRelocationInformationResponseProtocolIEs (.optional 0 RANAP_EnhancedRelocationInformationResponseProtocolExtensions .nil))
/-- examples/tests/11-ranap.rs:12554-12556 -/
def UplinkInformationExchangeFailureProtocolExtensions_Entry : Ty := .sequence false 0 .nil
/-- examples/tests/11-ranap.rs:12558-12567 -/
def UplinkInformationExchangeFailureProtocolExtensions : Ty := .sequenceOf (some 1) (some 65535) false UplinkInformationExchangeFailureProtocolExtensions_Entry
/-- examples/tests/11-ranap.rs:12519-12532 -/
def UplinkInformationExchangeFailureProtocolIEs_EntryValue : Ty := .openType (.cons 3 false CN_DomainIndicator (.cons 4 false Cause (.cons 9 false CriticalityDiagnostics (.cons 96 false GlobalCN_ID (.cons 136 false InformationExchangeID .nil)))))
/-- examples/tests/11-ranap.rs:12534-12541 -/
def UplinkInformationExchangeFailureProtocolIEs_Entry : Ty := .sequence false 0 (.required true ProtocolIE_ID (.required false Criticality (.required false UplinkInformationExchangeFailureProtocolIEs_EntryValue .nil)))
/-- examples/tests/11-ranap.rs:12543-12552 -/
def UplinkInformationExchangeFailureProtocolIEs : Ty := .sequenceOf (some 0) (some 65535) false UplinkInformationExchangeFailureProtocolIEs_Entry
/-- examples/tests/11-ranap.rs:4462-4468 -/
def UplinkInformationExchangeFailure : Ty := .sequence true 1 (.required false UplinkInformationExchangeFailureProtocolIEs (.optional 0 UplinkInformationExchangeFailureProtocolExtensions .nil))
/-- examples/tests/11-ranap.rs:11787-11789 -/
def SecurityModeRejectProtocolExtensions_Entry : Ty := .sequence false 0 .nil
/-- examples/tests/11-ranap.rs:11791-11800 -/
def SecurityModeRejectProtocolExtensions : Ty := .sequenceOf (some 1) (some 65535) false SecurityModeRejectProtocolExtensions_Entry
/-- examples/tests/11-ranap.rs:11760-11767 -/
def SecurityModeRejectProtocolIEs_EntryValue : Ty := .openType (.cons 4 false Cause (.cons 9 false CriticalityDiagnostics .nil))
/-- examples/tests/11-ranap.rs:11769-11776 -/
def SecurityModeRejectProtocolIEs_Entry : Ty := .sequence false 0 (.required true ProtocolIE_ID (.required false Criticality (.required false SecurityModeRejectProtocolIEs_EntryValue .nil)))
/-- examples/tests/11-ranap.rs:11778-11785 -/
def SecurityModeRejectProtocolIEs : Ty := .sequenceOf (some 0) (some 65535) false SecurityModeRejectProtocolIEs_Entry
/-- examples/tests/11-ranap.rs:3819-3825 -/
def SecurityModeReject : Ty := .sequence true 1 (.required false SecurityModeRejectProtocolIEs (.optional 0 SecurityModeRejectProtocolExtensions .nil))
/-- examples/tests/11-ranap.rs:10575-10582 -/
def RelocationFailureProtocolExtensions_EntryExtensionValue : Ty := .openType (.cons 108 false GERAN_Classmark (.cons 100 false NewBSS_To_OldBSS_Information .nil))
/-- examples/tests/11-ranap.rs:10584-10591 -/
def RelocationFailureProtocolExtensions_Entry : Ty := .sequence false 0 (.required true ProtocolExtensionID (.required false Criticality (.required false RelocationFailureProtocolExtensions_EntryExtensionValue .nil)))
/-- examples/tests/11-ranap.rs:10593-10600 -/
def RelocationFailureProtocolExtensions : Ty := .sequenceOf (some 1) (some 65535) false RelocationFailureProtocolExtensions_Entry
/-- examples/tests/11-ranap.rs:10548-10555 -/
def RelocationFailureProtocolIEs_EntryValue : Ty := .openType (.cons 4 false Cause (.cons 9 false CriticalityDiagnostics .nil))
/-- examples/tests/11-ranap.rs:10557-10564 -/
def RelocationFailureProtocolIEs_Entry : Ty := .sequence false 0 (.required true ProtocolIE_ID (.required false Criticality (.required false RelocationFailureProtocolIEs_EntryValue .nil)))
/-- examples/tests/11-ranap.rs:10566-10573 -/
def RelocationFailureProtocolIEs : Ty := .sequenceOf (some 0) (some 65535) false RelocationFailureProtocolIEs_Entry
/-- examples/tests/11-ranap.rs:3365-3371 -/
def RelocationFailure : Ty := .sequence true 1 (.required false RelocationFailureProtocolIEs (.optional 0 RelocationFailureProtocolExtensions .nil))
/-- examples/tests/11-ranap.rs:10631-10636 -/
def RelocationPreparationFailureProtocolExtensions_EntryExtensionValue : Ty := .openType (.cons 99 false InterSystemInformation_TransparentContainer .nil)
/-- examples/tests/11-ranap.rs:10638-10645 -/
def RelocationPreparationFailureProtocolExtensions_Entry : Ty := .sequence false 0 (.required true ProtocolExtensionID (.required false Criticality (.required false RelocationPreparationFailureProtocolExtensions_EntryExtensionValue .nil)))
/-- examples/tests/11-ranap.rs:10647-10656 -/
def RelocationPreparationFailureProtocolExtensions : Ty := .sequenceOf (some 1) (some 65535) false RelocationPreparationFailureProtocolExtensions_Entry
/-- examples/tests/11-ranap.rs:10602-10609 -/
def RelocationPreparationFailureProtocolIEs_EntryValue : Ty := .openType (.cons 4 false Cause (.cons 9 false CriticalityDiagnostics .nil))
/-- examples/tests/11-ranap.rs:10611-10618 -/
def RelocationPreparationFailureProtocolIEs_Entry : Ty := .sequence false 0 (.required true ProtocolIE_ID (.required false Criticality (.required false RelocationPreparationFailureProtocolIEs_EntryValue .nil)))
/-- examples/tests/11-ranap.rs:10620-10629 -/
def RelocationPreparationFailureProtocolIEs : Ty := .sequenceOf (some 0) (some 65535) false RelocationPreparationFailureProtocolIEs_Entry
/-- examples/tests/11-ranap.rs:3373-3379 -/
def RelocationPreparationFailure : Ty := .sequence true 1 (.required false RelocationPreparationFailureProtocolIEs (.optional 0 RelocationPreparationFailureProtocolExtensions .nil))
/-- examples/tests/11-ranap.rs:12492-12517 -/
def UnsuccessfulOutcomeValue : Ty := .openType (.cons 31 false InformationTransferFailure (.cons 30 false LocationRelatedDataFailure (.cons 42 false MBMSRABReleaseFailure (.cons 39 false MBMSRegistrationFailure (.cons 35 false MBMSSessionStartFailure (.cons 36 false MBMSSessionUpdateFailure (.cons 2 false RelocationPreparationFailure (.cons 3 false RelocationFailure (.cons 6 false SecurityModeReject (.cons 33 false UplinkInformationExchangeFailure (.cons 43 false EnhancedRelocationCompleteFailure .nil)))))))))))
/-- examples/tests/11-ranap.rs:4449-4456 -/
def UnsuccessfulOutcome : Ty := .sequence false 0 (.required true ProcedureCode (.required false Criticality (.required false UnsuccessfulOutcomeValue .nil)))
/-- examples/tests/11-ranap.rs:12668-12670 -/
def UplinkInformationExchangeResponseProtocolExtensions_Entry : Ty := .sequence false 0 .nil
/-- examples/tests/11-ranap.rs:12672-12681 -/
def UplinkInformationExchangeResponseProtocolExtensions : Ty := .sequenceOf (some 1) (some 65535) false UplinkInformationExchangeResponseProtocolExtensions_Entry
/-- examples/tests/11-ranap.rs:12633-12646 -/
def UplinkInformationExchangeResponseProtocolIEs_EntryValue : Ty := .openType (.cons 3 false CN_DomainIndicator (.cons 9 false CriticalityDiagnostics (.cons 96 false GlobalCN_ID (.cons 136 false InformationExchangeID (.cons 138 false InformationRequested .nil)))))
/-- examples/tests/11-ranap.rs:12648-12655 -/
def UplinkInformationExchangeResponseProtocolIEs_Entry : Ty := .sequence false 0 (.required true ProtocolIE_ID (.required false Criticality (.required false UplinkInformationExchangeResponseProtocolIEs_EntryValue .nil)))
/-- examples/tests/11-ranap.rs:12657-12666 -/
def UplinkInformationExchangeResponseProtocolIEs : Ty := .sequenceOf (some 0) (some 65535) false UplinkInformationExchangeResponseProtocolIEs_Entry
/-- examples/tests/11-ranap.rs:4478-4484 -/
def UplinkInformationExchangeResponse : Ty := .sequence true 1 (.required false UplinkInformationExchangeResponseProtocolIEs (.optional 0 UplinkInformationExchangeResponseProtocolExtensions .nil))
/-- examples/tests/11-ranap.rs:11745-11747 -/
def SecurityModeCompleteProtocolExtensions_Entry : Ty := .sequence false 0 .nil
/-- examples/tests/11-ranap.rs:11749-11758 -/
def SecurityModeCompleteProtocolExtensions : Ty := .sequenceOf (some 1) (some 65535) false SecurityModeCompleteProtocolExtensions_Entry
/-- examples/tests/11-ranap.rs:11716-11725 -/
def SecurityModeCompleteProtocolIEs_EntryValue : Ty := .openType (.cons 5 false ChosenEncryptionAlgorithm (.cons 6 false ChosenIntegrityProtectionAlgorithm (.cons 9 false CriticalityDiagnostics .nil)))
/-- examples/tests/11-ranap.rs:11727-11734 -/
def SecurityModeCompleteProtocolIEs_Entry : Ty := .sequence false 0 (.required true ProtocolIE_ID (.required false Criticality (.required false SecurityModeCompleteProtocolIEs_EntryValue .nil)))
/-- examples/tests/11-ranap.rs:11736-11743 -/
def SecurityModeCompleteProtocolIEs : Ty := .sequenceOf (some 0) (some 65535) false SecurityModeCompleteProtocolIEs_Entry
/-- examples/tests/11-ranap.rs:3811-3817 -/
def SecurityModeComplete : Ty := .sequence true 1 (.required false SecurityModeCompleteProtocolIEs (.optional 0 SecurityModeCompleteProtocolExtensions .nil))
/-- examples/tests/11-ranap.rs:11521-11523 -/
def SRNS_ContextResponseProtocolExtensions_Entry : Ty := .sequence false 0 .nil
/-- examples/tests/11-ranap.rs:11525-11534 -/
def SRNS_ContextResponseProtocolExtensions : Ty := .sequenceOf (some 1) (some 65535) false SRNS_ContextResponseProtocolExtensions_Entry
/-- examples/tests/11-ranap.rs:11492-11501 -/
def SRNS_ContextResponseProtocolIEs_EntryValue : Ty := .openType (.cons 9 false CriticalityDiagnostics (.cons 85 false RAB_ContextFailedtoTransferList (.cons 25 false RAB_ContextList .nil)))
/-- examples/tests/11-ranap.rs:11503-11510 -/
def SRNS_ContextResponseProtocolIEs_Entry : Ty := .sequence false 0 (.required true ProtocolIE_ID (.required false Criticality (.required false SRNS_ContextResponseProtocolIEs_EntryValue .nil)))
/-- examples/tests/11-ranap.rs:11512-11519 -/
def SRNS_ContextResponseProtocolIEs : Ty := .sequenceOf (some 0) (some 65535) false SRNS_ContextResponseProtocolIEs_Entry
/-- examples/tests/11-ranap.rs:3741-3747 -/
def SRNS_ContextResponse : Ty := .sequence true 1 (.required false SRNS_ContextResponseProtocolIEs (.optional 0 SRNS_ContextResponseProtocolExtensions .nil))
/-- examples/tests/11-ranap.rs:11228-11235 -/
def ResetResourceAcknowledgeProtocolExtensions_EntryExtensionValue : Ty := .openType (.cons 171 false ExtendedRNC_ID (.cons 96 false GlobalCN_ID .nil))
/-- examples/tests/11-ranap.rs:11237-11244 -/
def ResetResourceAcknowledgeProtocolExtensions_Entry : Ty := .sequence false 0 (.required true ProtocolExtensionID (.required false Criticality (.required false ResetResourceAcknowledgeProtocolExtensions_EntryExtensionValue .nil)))
/-- examples/tests/11-ranap.rs:11246-11255 -/
def ResetResourceAcknowledgeProtocolExtensions : Ty := .sequenceOf (some 1) (some 65535) false ResetResourceAcknowledgeProtocolExtensions_Entry
/-- examples/tests/11-ranap.rs:11147-11152 -/
def ResetResourceAckItemIE_Extensions_EntryExtensionValue : Ty := .openType (.cons 282 false IuSignallingConnectionIdentifier .nil)
/-- examples/tests/11-ranap.rs:11154-11161 -/
def ResetResourceAckItemIE_Extensions_Entry : Ty := .sequence false 0 (.required true ProtocolExtensionID (.required false Criticality (.required false ResetResourceAckItemIE_Extensions_EntryExtensionValue .nil)))
/-- examples/tests/11-ranap.rs:11163-11170 -/
def ResetResourceAckItemIE_Extensions : Ty := .sequenceOf (some 1) (some 65535) false ResetResourceAckItemIE_Extensions_Entry
/-- examples/tests/11-ranap.rs:3593-3599 -/
def ResetResourceAckItem : Ty := .sequence true 1 (.required false IuSignallingConnectionIdentifier (.optional 0 ResetResourceAckItemIE_Extensions .nil))
/-- examples/tests/11-ranap.rs:11172-11177 -/
def ResetResourceAckList_Entry_EntryValue : Ty := .openType (.cons 78 false ResetResourceAckItem .nil)
/-- examples/tests/11-ranap.rs:11179-11186 -/
def ResetResourceAckList_Entry_Entry : Ty := .sequence false 0 (.required true ProtocolIE_ID (.required false Criticality (.required false ResetResourceAckList_Entry_EntryValue .nil)))
/-- examples/tests/11-ranap.rs:11188-11195 -/
def ResetResourceAckList_Entry : Ty := .sequenceOf (some 0) (some 65535) false ResetResourceAckList_Entry_Entry
/-- examples/tests/11-ranap.rs:3601-3608 -/
def ResetResourceAckList : Ty := .sequenceOf (some 1) (some 250) false ResetResourceAckList_Entry
/-- examples/tests/11-ranap.rs:11197-11208 -/
def ResetResourceAcknowledgeProtocolIEs_EntryValue : Ty := .openType (.cons 3 false CN_DomainIndicator (.cons 9 false CriticalityDiagnostics (.cons 86 false GlobalRNC_ID (.cons 77 false ResetResourceAckList .nil))))
/-- examples/tests/11-ranap.rs:11210-11217 -/
def ResetResourceAcknowledgeProtocolIEs_Entry : Ty := .sequence false 0 (.required true ProtocolIE_ID (.required false Criticality (.required false ResetResourceAcknowledgeProtocolIEs_EntryValue .nil)))
/-- examples/tests/11-ranap.rs:11219-11226 -/
def ResetResourceAcknowledgeProtocolIEs : Ty := .sequenceOf (some 0) (some 65535) false ResetResourceAcknowledgeProtocolIEs_Entry
/-- examples/tests/11-ranap.rs:3610-3616 -/
def ResetResourceAcknowledge : Ty := .sequence true 1 (.required false ResetResourceAcknowledgeProtocolIEs (.optional 0 ResetResourceAcknowledgeProtocolExtensions .nil))
/-- examples/tests/11-ranap.rs:11062-11069 -/
def ResetAcknowledgeProtocolExtensions_EntryExtensionValue : Ty := .openType (.cons 171 false ExtendedRNC_ID (.cons 96 false GlobalCN_ID .nil))
/-- examples/tests/11-ranap.rs:11071-11078 -/
def ResetAcknowledgeProtocolExtensions_Entry : Ty := .sequence false 0 (.required true ProtocolExtensionID (.required false Criticality (.required false ResetAcknowledgeProtocolExtensions_EntryExtensionValue .nil)))
/-- examples/tests/11-ranap.rs:11080-11087 -/
def ResetAcknowledgeProtocolExtensions : Ty := .sequenceOf (some 1) (some 65535) false ResetAcknowledgeProtocolExtensions_Entry
/-- examples/tests/11-ranap.rs:11033-11042 -/
def ResetAcknowledgeProtocolIEs_EntryValue : Ty := .openType (.cons 3 false CN_DomainIndicator (.cons 9 false CriticalityDiagnostics (.cons 86 false GlobalRNC_ID .nil)))
/-- examples/tests/11-ranap.rs:11044-11051 -/
def ResetAcknowledgeProtocolIEs_Entry : Ty := .sequence false 0 (.required true ProtocolIE_ID (.required false Criticality (.required false ResetAcknowledgeProtocolIEs_EntryValue .nil)))
/-- examples/tests/11-ranap.rs:11053-11060 -/
def ResetAcknowledgeProtocolIEs : Ty := .sequenceOf (some 0) (some 65535) false ResetAcknowledgeProtocolIEs_Entry
/-- examples/tests/11-ranap.rs:3577-3583 -/
def ResetAcknowledge : Ty := .sequence true 1 (.required false ResetAcknowledgeProtocolIEs (.optional 0 ResetAcknowledgeProtocolExtensions .nil))
/-- examples/tests/11-ranap.rs:10783-10790 -/
def RelocationRequestAcknowledgeProtocolExtensions_EntryExtensionValue : Ty := .openType (.cons 203 false CSG_Id (.cons 100 false NewBSS_To_OldBSS_Information .nil))
/-- examples/tests/11-ranap.rs:10792-10799 -/
def RelocationRequestAcknowledgeProtocolExtensions_Entry : Ty := .sequence false 0 (.required true ProtocolExtensionID (.required false Criticality (.required false RelocationRequestAcknowledgeProtocolExtensions_EntryExtensionValue .nil)))
/-- examples/tests/11-ranap.rs:10801-10810 -/
def RelocationRequestAcknowledgeProtocolExtensions : Ty := .sequenceOf (some 1) (some 65535) false RelocationRequestAcknowledgeProtocolExtensions_Entry
/-- examples/tests/11-ranap.rs:10746-10761 -/
def RelocationRequestAcknowledgeProtocolIEs_EntryValue : Ty := .openType (.cons 5 false ChosenEncryptionAlgorithm (.cons 6 false ChosenIntegrityProtectionAlgorithm (.cons 9 false CriticalityDiagnostics (.cons 35 false RAB_FailedList (.cons 50 false RAB_SetupList_RelocReqAck (.cons 63 false TargetRNC_ToSourceRNC_TransparentContainer .nil))))))
/-- examples/tests/11-ranap.rs:10763-10770 -/
def RelocationRequestAcknowledgeProtocolIEs_Entry : Ty := .sequence false 0 (.required true ProtocolIE_ID (.required false Criticality (.required false RelocationRequestAcknowledgeProtocolIEs_EntryValue .nil)))
/-- examples/tests/11-ranap.rs:10772-10781 -/
def RelocationRequestAcknowledgeProtocolIEs : Ty := .sequenceOf (some 0) (some 65535) false RelocationRequestAcknowledgeProtocolIEs_Entry
/-- examples/tests/11-ranap.rs:3389-3395 -/
def RelocationRequestAcknowledge : Ty := .sequence true 1 (.required false RelocationRequestAcknowledgeProtocolIEs (.optional 0 RelocationRequestAcknowledgeProtocolExtensions .nil))
/-- examples/tests/11-ranap.rs:4031-4033 -/
def TargetBSS_ToSourceBSS_TransparentContainer : Ty := .octetstring none none false
/-- examples/tests/11-ranap.rs:10297-10299 -/
def RSRVCC_InformationIE_Extensions_Entry : Ty := .sequence false 0 .nil
/-- examples/tests/11-ranap.rs:10301-10308 -/
def RSRVCC_InformationIE_Extensions : Ty := .sequenceOf (some 1) (some 65535) false RSRVCC_InformationIE_Extensions_Entry
/-- examples/tests/11-ranap.rs:10288-10295 -/
def OCTET_STRING_55 : Ty := .octetstring (some 1) (some 32) false
/-- examples/tests/11-ranap.rs:10279-10286 -/
def BIT_STRING_54 : Ty := .bitstring (some 128) (some 128) false
/-- examples/tests/11-ranap.rs:3265-3272 -/
def RSRVCC_Information : Ty := .sequence true 1 (.required false BIT_STRING_54 (.required false OCTET_STRING_55 (.optional 0 RSRVCC_InformationIE_Extensions .nil)))
/-- examples/tests/11-ranap.rs:10447-10458 -/
def RelocationCommandProtocolExtensions_EntryExtensionValue : Ty := .openType (.cons 99 false InterSystemInformation_TransparentContainer (.cons 260 false RSRVCC_Information (.cons 227 false SRVCC_Information (.cons 162 false TargetBSS_ToSourceBSS_TransparentContainer .nil))))
/-- examples/tests/11-ranap.rs:10460-10467 -/
def RelocationCommandProtocolExtensions_Entry : Ty := .sequence false 0 (.required true ProtocolExtensionID (.required false Criticality (.required false RelocationCommandProtocolExtensions_EntryExtensionValue .nil)))
/-- examples/tests/11-ranap.rs:10469-10476 -/
def RelocationCommandProtocolExtensions : Ty := .sequenceOf (some 1) (some 65535) false RelocationCommandProtocolExtensions_Entry
/-- examples/tests/11-ranap.rs:4027-4029 -/
def Target_ToSource_TransparentContainer : Ty := .octetstring none none false
/-- examples/tests/11-ranap.rs:10414-10427 -/
def RelocationCommandProtocolIEs_EntryValue : Ty := .openType (.cons 9 false CriticalityDiagnostics (.cons 14 false L3_Information (.cons 28 false RAB_DataForwardingList (.cons 46 false RAB_RelocationReleaseList (.cons 63 false Target_ToSource_TransparentContainer .nil)))))
/-- examples/tests/11-ranap.rs:10429-10436 -/
def RelocationCommandProtocolIEs_Entry : Ty := .sequence false 0 (.required true ProtocolIE_ID (.required false Criticality (.required false RelocationCommandProtocolIEs_EntryValue .nil)))
/-- examples/tests/11-ranap.rs:10438-10445 -/
def RelocationCommandProtocolIEs : Ty := .sequenceOf (some 0) (some 65535) false RelocationCommandProtocolIEs_Entry
/-- examples/tests/11-ranap.rs:3341-3347 -/
def RelocationCommand : Ty := .sequence true 1 (.required false RelocationCommandProtocolIEs (.optional 0 RelocationCommandProtocolExtensions .nil))
/-- examples/tests/11-ranap.rs:10399-10401 -/
def RelocationCancelAcknowledgeProtocolExtensions_Entry : Ty := .sequence false 0 .nil
/-- examples/tests/11-ranap.rs:10403-10412 -/
def RelocationCancelAcknowledgeProtocolExtensions : Ty := .sequenceOf (some 1) (some 65535) false RelocationCancelAcknowledgeProtocolExtensions_Entry
/-- examples/tests/11-ranap.rs:10372-10377 -/
def RelocationCancelAcknowledgeProtocolIEs_EntryValue : Ty := .openType (.cons 9 false CriticalityDiagnostics .nil)
/-- examples/tests/11-ranap.rs:10379-10386 -/
def RelocationCancelAcknowledgeProtocolIEs_Entry : Ty := .sequence false 0 (.required true ProtocolIE_ID (.required false Criticality (.required false RelocationCancelAcknowledgeProtocolIEs_EntryValue .nil)))
/-- examples/tests/11-ranap.rs:10388-10397 -/
def RelocationCancelAcknowledgeProtocolIEs : Ty := .sequenceOf (some 0) (some 65535) false RelocationCancelAcknowledgeProtocolIEs_Entry
/-- examples/tests/11-ranap.rs:3333-3339 -/
def RelocationCancelAcknowledge : Ty := .sequence true 1 (.required false RelocationCancelAcknowledgeProtocolIEs (.optional 0 RelocationCancelAcknowledgeProtocolExtensions .nil))
/-- examples/tests/11-ranap.rs:11911-11954 -/
def SuccessfulOutcomeValue : Ty := .openType (.cons 7 false DataVolumeReport (.cons 31 false InformationTransferConfirmation (.cons 1 false Iu_ReleaseComplete (.cons 30 false LocationRelatedDataResponse (.cons 40 false MBMSCNDe_RegistrationResponse (.cons 42 false MBMSRABRelease (.cons 39 false MBMSRegistrationResponse (.cons 35 false MBMSSessionStartResponse (.cons 37 false MBMSSessionStopResponse (.cons 36 false MBMSSessionUpdateResponse (.cons 45 false RANAP_EnhancedRelocationInformationResponse (.cons 4 false RelocationCancelAcknowledge (.cons 2 false RelocationCommand (.cons 3 false RelocationRequestAcknowledge (.cons 9 false ResetAcknowledge (.cons 27 false ResetResourceAcknowledge (.cons 5 false SRNS_ContextResponse (.cons 6 false SecurityModeComplete (.cons 33 false UplinkInformationExchangeResponse (.cons 43 false EnhancedRelocationCompleteResponse .nil))))))))))))))))))))
/-- examples/tests/11-ranap.rs:3962-3969 -/
def SuccessfulOutcome : Ty := .sequence false 0 (.required true ProcedureCode (.required false Criticality (.required false SuccessfulOutcomeValue .nil)))
/-- examples/tests/11-ranap.rs:3150-3161 -/
def RANAP_PDU : Ty := .choice 0 3 true (.cons 0 false InitiatingMessage (.cons 1 false SuccessfulOutcome (.cons 2 false UnsuccessfulOutcome (.cons 3 false Outcome .nil))))
/-- examples/tests/11-ranap.rs:3285-3287 -/
def RateControlAllowed : Ty := .enumerated .u8 (some 0) (some 1) false
/-- examples/tests/11-ranap.rs:3950-3952 -/
def SourceeNodeB_ToTargeteNodeB_TransparentContainer : Ty := .octetstring none none false
/-- examples/tests/11-ranap.rs:4081-4083 -/
def TargeteNodeB_ToSourceeNodeB_TransparentContainer : Ty := .octetstring none none false

end Hampi.Ranap
