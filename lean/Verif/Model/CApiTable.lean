import Verif.Model.CApi

/-!
# The bodies of the functions of the C interface

SilKit/source/capi/Capi*.cpp, one definition for every function that returns a `SilKit_ReturnCode`, without the prefix `SilKit_`. The checks stand in
the order of the code. Simplified: after the checks, every pointer argument is used once (`read`, for structs `view`) before the library is called;
results and handlers are stored after it has returned. `void*` contexts are passed on and never followed.
-/
namespace SilKit.CApi

/-- CapiCan.cpp:16-30. -/
def fnCanControllerCreate : Fn :=
  ⟨"CanController_Create",
    [.ptr ⟨0, []⟩, .ptr ⟨1, []⟩, .ptr ⟨2, []⟩, .ptr ⟨3, []⟩,
     .read ⟨1, []⟩, .read ⟨2, []⟩, .read ⟨3, []⟩, .call,
     .write ⟨0, []⟩]⟩

/-- CapiCan.cpp:34-69. -/
def fnCanControllerAddFrameHandler : Fn :=
  ⟨"CanController_AddFrameHandler",
    [.ptr ⟨0, []⟩, .ptr ⟨2, []⟩, .ptr ⟨4, []⟩, .read ⟨0, []⟩,
     .call, .keep ⟨2, []⟩, .write ⟨4, []⟩]⟩

/-- CapiCan.cpp:73-82. -/
def fnCanControllerRemoveFrameHandler : Fn :=
  ⟨"CanController_RemoveFrameHandler",
    [.ptr ⟨0, []⟩, .read ⟨0, []⟩, .call]⟩

/-- CapiCan.cpp:86-111. -/
def fnCanControllerAddFrameTransmitHandler : Fn :=
  ⟨"CanController_AddFrameTransmitHandler",
    [.ptr ⟨0, []⟩, .ptr ⟨2, []⟩, .ptr ⟨4, []⟩, .read ⟨0, []⟩,
     .call, .keep ⟨2, []⟩, .write ⟨4, []⟩]⟩

/-- CapiCan.cpp:115-124. -/
def fnCanControllerRemoveFrameTransmitHandler : Fn :=
  ⟨"CanController_RemoveFrameTransmitHandler",
    [.ptr ⟨0, []⟩, .read ⟨0, []⟩, .call]⟩

/-- CapiCan.cpp:128-148. -/
def fnCanControllerAddStateChangeHandler : Fn :=
  ⟨"CanController_AddStateChangeHandler",
    [.ptr ⟨0, []⟩, .ptr ⟨2, []⟩, .ptr ⟨3, []⟩, .read ⟨0, []⟩,
     .call, .keep ⟨2, []⟩, .write ⟨3, []⟩]⟩

/-- CapiCan.cpp:152-161. -/
def fnCanControllerRemoveStateChangeHandler : Fn :=
  ⟨"CanController_RemoveStateChangeHandler",
    [.ptr ⟨0, []⟩, .read ⟨0, []⟩, .call]⟩

/-- CapiCan.cpp:165-187. -/
def fnCanControllerAddErrorStateChangeHandler : Fn :=
  ⟨"CanController_AddErrorStateChangeHandler",
    [.ptr ⟨0, []⟩, .ptr ⟨2, []⟩, .ptr ⟨3, []⟩, .read ⟨0, []⟩,
     .call, .keep ⟨2, []⟩, .write ⟨3, []⟩]⟩

/-- CapiCan.cpp:191-200. -/
def fnCanControllerRemoveErrorStateChangeHandler : Fn :=
  ⟨"CanController_RemoveErrorStateChangeHandler",
    [.ptr ⟨0, []⟩, .read ⟨0, []⟩, .call]⟩

/-- CapiCan.cpp:204-213. -/
def fnCanControllerSetBaudRate : Fn :=
  ⟨"CanController_SetBaudRate",
    [.ptr ⟨0, []⟩, .read ⟨0, []⟩, .call]⟩

/-- CapiCan.cpp:217-239. -/
def fnCanControllerSendFrame : Fn :=
  ⟨"CanController_SendFrame",
    [.ptr ⟨0, []⟩, .ptr ⟨1, []⟩, .header ⟨1, []⟩, .read ⟨0, []⟩,
     .view ⟨1, []⟩ (idMake 1 1 1), .array ⟨1, ["data.data"]⟩ ⟨1, ["data.size"]⟩ [], .call]⟩

/-- CapiCan.cpp:243-251. -/
def fnCanControllerStart : Fn :=
  ⟨"CanController_Start",
    [.ptr ⟨0, []⟩, .read ⟨0, []⟩, .call]⟩

/-- CapiCan.cpp:255-263. -/
def fnCanControllerStop : Fn :=
  ⟨"CanController_Stop",
    [.ptr ⟨0, []⟩, .read ⟨0, []⟩, .call]⟩

/-- CapiCan.cpp:267-275. -/
def fnCanControllerReset : Fn :=
  ⟨"CanController_Reset",
    [.ptr ⟨0, []⟩, .read ⟨0, []⟩, .call]⟩

/-- CapiCan.cpp:279-287. -/
def fnCanControllerSleep : Fn :=
  ⟨"CanController_Sleep",
    [.ptr ⟨0, []⟩, .read ⟨0, []⟩, .call]⟩

/-- CapiDataPubSub.cpp:19-36. -/
def fnDataPublisherCreate : Fn :=
  ⟨"DataPublisher_Create",
    [.ptr ⟨0, []⟩, .ptr ⟨1, []⟩, .ptr ⟨2, []⟩, .ptr ⟨3, []⟩,
     .read ⟨1, []⟩, .read ⟨2, []⟩, .view ⟨3, []⟩ (idMake 5 2 1), .read ⟨3, ["topic"]⟩,
     .read ⟨3, ["mediaType"]⟩, .array ⟨3, ["labelList.labels"]⟩ ⟨3, ["labelList.numLabels"]⟩ ["key", "value"], .call, .write ⟨0, []⟩]⟩

/-- CapiDataPubSub.cpp:40-49. -/
def fnDataPublisherPublish : Fn :=
  ⟨"DataPublisher_Publish",
    [.ptr ⟨0, []⟩, .ptr ⟨1, []⟩, .read ⟨0, []⟩, .read ⟨1, []⟩,
     .array ⟨1, ["data"]⟩ ⟨1, ["size"]⟩ [], .call]⟩

/-- CapiDataPubSub.cpp:53-90. -/
def fnDataSubscriberCreate : Fn :=
  ⟨"DataSubscriber_Create",
    [.ptr ⟨0, []⟩, .ptr ⟨1, []⟩, .ptr ⟨2, []⟩, .ptr ⟨3, []⟩,
     .read ⟨1, []⟩, .read ⟨2, []⟩, .view ⟨3, []⟩ (idMake 5 2 1), .read ⟨3, ["topic"]⟩,
     .read ⟨3, ["mediaType"]⟩, .array ⟨3, ["labelList.labels"]⟩ ⟨3, ["labelList.numLabels"]⟩ ["key", "value"], .call, .write ⟨0, []⟩,
     .keep ⟨5, []⟩]⟩

/-- CapiDataPubSub.cpp:94-119. -/
def fnDataSubscriberSetDataMessageHandler : Fn :=
  ⟨"DataSubscriber_SetDataMessageHandler",
    [.ptr ⟨0, []⟩, .ptr ⟨2, []⟩, .read ⟨0, []⟩, .call,
     .keep ⟨2, []⟩]⟩

/-- CapiEthernet.cpp:15-29. -/
def fnEthernetControllerCreate : Fn :=
  ⟨"EthernetController_Create",
    [.ptr ⟨0, []⟩, .ptr ⟨1, []⟩, .ptr ⟨2, []⟩, .ptr ⟨3, []⟩,
     .read ⟨1, []⟩, .read ⟨2, []⟩, .read ⟨3, []⟩, .call,
     .write ⟨0, []⟩]⟩

/-- CapiEthernet.cpp:33-41. -/
def fnEthernetControllerActivate : Fn :=
  ⟨"EthernetController_Activate",
    [.ptr ⟨0, []⟩, .read ⟨0, []⟩, .call]⟩

/-- CapiEthernet.cpp:45-53. -/
def fnEthernetControllerDeactivate : Fn :=
  ⟨"EthernetController_Deactivate",
    [.ptr ⟨0, []⟩, .read ⟨0, []⟩, .call]⟩

/-- CapiEthernet.cpp:57-91. -/
def fnEthernetControllerAddFrameHandler : Fn :=
  ⟨"EthernetController_AddFrameHandler",
    [.ptr ⟨0, []⟩, .ptr ⟨2, []⟩, .ptr ⟨4, []⟩, .read ⟨0, []⟩,
     .call, .keep ⟨2, []⟩, .write ⟨4, []⟩]⟩

/-- CapiEthernet.cpp:95-104. -/
def fnEthernetControllerRemoveFrameHandler : Fn :=
  ⟨"EthernetController_RemoveFrameHandler",
    [.ptr ⟨0, []⟩, .read ⟨0, []⟩, .call]⟩

/-- CapiEthernet.cpp:108-133. -/
def fnEthernetControllerAddFrameTransmitHandler : Fn :=
  ⟨"EthernetController_AddFrameTransmitHandler",
    [.ptr ⟨0, []⟩, .ptr ⟨2, []⟩, .ptr ⟨4, []⟩, .read ⟨0, []⟩,
     .call, .keep ⟨2, []⟩, .write ⟨4, []⟩]⟩

/-- CapiEthernet.cpp:137-146. -/
def fnEthernetControllerRemoveFrameTransmitHandler : Fn :=
  ⟨"EthernetController_RemoveFrameTransmitHandler",
    [.ptr ⟨0, []⟩, .read ⟨0, []⟩, .call]⟩

/-- CapiEthernet.cpp:150-171. -/
def fnEthernetControllerAddStateChangeHandler : Fn :=
  ⟨"EthernetController_AddStateChangeHandler",
    [.ptr ⟨0, []⟩, .ptr ⟨2, []⟩, .ptr ⟨3, []⟩, .read ⟨0, []⟩,
     .call, .keep ⟨2, []⟩, .write ⟨3, []⟩]⟩

/-- CapiEthernet.cpp:175-184. -/
def fnEthernetControllerRemoveStateChangeHandler : Fn :=
  ⟨"EthernetController_RemoveStateChangeHandler",
    [.ptr ⟨0, []⟩, .read ⟨0, []⟩, .call]⟩

/-- CapiEthernet.cpp:188-211. -/
def fnEthernetControllerAddBitrateChangeHandler : Fn :=
  ⟨"EthernetController_AddBitrateChangeHandler",
    [.ptr ⟨0, []⟩, .ptr ⟨2, []⟩, .ptr ⟨3, []⟩, .read ⟨0, []⟩,
     .call, .keep ⟨2, []⟩, .write ⟨3, []⟩]⟩

/-- CapiEthernet.cpp:215-224. -/
def fnEthernetControllerRemoveBitrateChangeHandler : Fn :=
  ⟨"EthernetController_RemoveBitrateChangeHandler",
    [.ptr ⟨0, []⟩, .read ⟨0, []⟩, .call]⟩

/-- CapiEthernet.cpp:228-243. -/
def fnEthernetControllerSendFrame : Fn :=
  ⟨"EthernetController_SendFrame",
    [.ptr ⟨0, []⟩, .ptr ⟨1, []⟩, .read ⟨0, []⟩, .view ⟨1, []⟩ (idMake 2 5 1),
     .array ⟨1, ["raw.data"]⟩ ⟨1, ["raw.size"]⟩ [], .call]⟩

/-- CapiFlexray.cpp:109-127. -/
def fnFlexrayControllerCreate : Fn :=
  ⟨"FlexrayController_Create",
    [.ptr ⟨0, []⟩, .ptr ⟨1, []⟩, .ptr ⟨2, []⟩, .ptr ⟨3, []⟩,
     .read ⟨1, []⟩, .read ⟨2, []⟩, .read ⟨3, []⟩, .call,
     .write ⟨0, []⟩]⟩

/-- CapiFlexray.cpp:131-150. -/
def fnFlexrayControllerConfigure : Fn :=
  ⟨"FlexrayController_Configure",
    [.ptr ⟨0, []⟩, .ptr ⟨1, []⟩, .ptr ⟨1, ["clusterParams"]⟩, .ptr ⟨1, ["nodeParams"]⟩,
     .header ⟨1, []⟩, .header ⟨1, ["clusterParams"]⟩, .header ⟨1, ["nodeParams"]⟩, .read ⟨0, []⟩,
     .view ⟨1, []⟩ (idMake 3 9 1), .view ⟨1, ["clusterParams"]⟩ (idMake 3 10 1), .view ⟨1, ["nodeParams"]⟩ (idMake 3 11 2), .array ⟨1, ["bufferConfigs"]⟩ ⟨1, ["numBufferConfigs"]⟩ [],
     .call]⟩

/-- CapiFlexray.cpp:154-170. -/
def fnFlexrayControllerReconfigureTxBuffer : Fn :=
  ⟨"FlexrayController_ReconfigureTxBuffer",
    [.ptr ⟨0, []⟩, .ptr ⟨2, []⟩, .header ⟨2, []⟩, .bool ⟨2, ["hasPayloadPreambleIndicator"]⟩,
     .read ⟨0, []⟩, .view ⟨2, []⟩ (idMake 3 15 1), .call]⟩

/-- CapiFlexray.cpp:174-193. -/
def fnFlexrayControllerUpdateTxBuffer : Fn :=
  ⟨"FlexrayController_UpdateTxBuffer",
    [.ptr ⟨0, []⟩, .ptr ⟨1, []⟩, .bool ⟨1, ["payloadDataValid"]⟩, .read ⟨0, []⟩,
     .view ⟨1, []⟩ (idMake 3 16 1), .ptrIf ⟨1, ["payloadDataValid"]⟩ ⟨1, ["payload.data"]⟩, .call]⟩

/-- CapiFlexray.cpp:197-228. -/
def fnFlexrayControllerExecuteCmd : Fn :=
  ⟨"FlexrayController_ExecuteCmd",
    [.ptr ⟨0, []⟩, .read ⟨0, []⟩, .oneOf ⟨1, []⟩ [0, 1, 2, 3, 4, 5], .call]⟩

/-- CapiFlexray.cpp:232-271. -/
def fnFlexrayControllerAddFrameHandler : Fn :=
  ⟨"FlexrayController_AddFrameHandler",
    [.ptr ⟨0, []⟩, .ptr ⟨2, []⟩, .ptr ⟨3, []⟩, .read ⟨0, []⟩,
     .call, .keep ⟨2, []⟩, .write ⟨3, []⟩]⟩

/-- CapiFlexray.cpp:275-284. -/
def fnFlexrayControllerRemoveFrameHandler : Fn :=
  ⟨"FlexrayController_RemoveFrameHandler",
    [.ptr ⟨0, []⟩, .read ⟨0, []⟩, .call]⟩

/-- CapiFlexray.cpp:288-326. -/
def fnFlexrayControllerAddFrameTransmitHandler : Fn :=
  ⟨"FlexrayController_AddFrameTransmitHandler",
    [.ptr ⟨0, []⟩, .ptr ⟨2, []⟩, .ptr ⟨3, []⟩, .read ⟨0, []⟩,
     .call, .keep ⟨2, []⟩, .write ⟨3, []⟩]⟩

/-- CapiFlexray.cpp:330-339. -/
def fnFlexrayControllerRemoveFrameTransmitHandler : Fn :=
  ⟨"FlexrayController_RemoveFrameTransmitHandler",
    [.ptr ⟨0, []⟩, .read ⟨0, []⟩, .call]⟩

/-- CapiFlexray.cpp:343-366. -/
def fnFlexrayControllerAddWakeupHandler : Fn :=
  ⟨"FlexrayController_AddWakeupHandler",
    [.ptr ⟨0, []⟩, .ptr ⟨2, []⟩, .ptr ⟨3, []⟩, .read ⟨0, []⟩,
     .call, .keep ⟨2, []⟩, .write ⟨3, []⟩]⟩

/-- CapiFlexray.cpp:370-379. -/
def fnFlexrayControllerRemoveWakeupHandler : Fn :=
  ⟨"FlexrayController_RemoveWakeupHandler",
    [.ptr ⟨0, []⟩, .read ⟨0, []⟩, .call]⟩

/-- CapiFlexray.cpp:383-412. -/
def fnFlexrayControllerAddPocStatusHandler : Fn :=
  ⟨"FlexrayController_AddPocStatusHandler",
    [.ptr ⟨0, []⟩, .ptr ⟨2, []⟩, .ptr ⟨3, []⟩, .read ⟨0, []⟩,
     .call, .keep ⟨2, []⟩, .write ⟨3, []⟩]⟩

/-- CapiFlexray.cpp:416-425. -/
def fnFlexrayControllerRemovePocStatusHandler : Fn :=
  ⟨"FlexrayController_RemovePocStatusHandler",
    [.ptr ⟨0, []⟩, .read ⟨0, []⟩, .call]⟩

/-- CapiFlexray.cpp:429-451. -/
def fnFlexrayControllerAddSymbolHandler : Fn :=
  ⟨"FlexrayController_AddSymbolHandler",
    [.ptr ⟨0, []⟩, .ptr ⟨2, []⟩, .ptr ⟨3, []⟩, .read ⟨0, []⟩,
     .call, .keep ⟨2, []⟩, .write ⟨3, []⟩]⟩

/-- CapiFlexray.cpp:455-464. -/
def fnFlexrayControllerRemoveSymbolHandler : Fn :=
  ⟨"FlexrayController_RemoveSymbolHandler",
    [.ptr ⟨0, []⟩, .read ⟨0, []⟩, .call]⟩

/-- CapiFlexray.cpp:468-489. -/
def fnFlexrayControllerAddSymbolTransmitHandler : Fn :=
  ⟨"FlexrayController_AddSymbolTransmitHandler",
    [.ptr ⟨0, []⟩, .ptr ⟨2, []⟩, .ptr ⟨3, []⟩, .read ⟨0, []⟩,
     .call, .keep ⟨2, []⟩, .write ⟨3, []⟩]⟩

/-- CapiFlexray.cpp:493-502. -/
def fnFlexrayControllerRemoveSymbolTransmitHandler : Fn :=
  ⟨"FlexrayController_RemoveSymbolTransmitHandler",
    [.ptr ⟨0, []⟩, .read ⟨0, []⟩, .call]⟩

/-- CapiFlexray.cpp:506-527. -/
def fnFlexrayControllerAddCycleStartHandler : Fn :=
  ⟨"FlexrayController_AddCycleStartHandler",
    [.ptr ⟨0, []⟩, .ptr ⟨2, []⟩, .ptr ⟨3, []⟩, .read ⟨0, []⟩,
     .call, .keep ⟨2, []⟩, .write ⟨3, []⟩]⟩

/-- CapiFlexray.cpp:531-540. -/
def fnFlexrayControllerRemoveCycleStartHandler : Fn :=
  ⟨"FlexrayController_RemoveCycleStartHandler",
    [.ptr ⟨0, []⟩, .read ⟨0, []⟩, .call]⟩

/-- CapiLin.cpp:73-91. -/
def fnLinControllerCreate : Fn :=
  ⟨"LinController_Create",
    [.ptr ⟨1, []⟩, .ptr ⟨0, []⟩, .ptr ⟨2, []⟩, .ptr ⟨3, []⟩,
     .read ⟨1, []⟩, .read ⟨2, []⟩, .read ⟨3, []⟩, .call,
     .write ⟨0, []⟩]⟩

/-- CapiLin.cpp:95-108. -/
def fnLinControllerInit : Fn :=
  ⟨"LinController_Init",
    [.ptr ⟨0, []⟩, .ptr ⟨1, []⟩, .header ⟨1, []⟩, .read ⟨0, []⟩,
     .view ⟨1, []⟩ (idMake 4 3 1), .array ⟨1, ["frameResponses"]⟩ ⟨1, ["numFrameResponses"]⟩ ["frame"], .call]⟩

/-- CapiLin.cpp:112-126. -/
def fnLinControllerSetFrameResponse : Fn :=
  ⟨"LinController_SetFrameResponse",
    [.ptr ⟨0, []⟩, .ptr ⟨1, []⟩, .header ⟨1, []⟩, .read ⟨0, []⟩,
     .view ⟨1, []⟩ (idMake 4 2 1), .read ⟨1, ["frame"]⟩, .call]⟩

/-- CapiLin.cpp:130-140. -/
def fnLinControllerStatus : Fn :=
  ⟨"LinController_Status",
    [.ptr ⟨0, []⟩, .ptr ⟨1, []⟩, .read ⟨0, []⟩, .call,
     .write ⟨1, []⟩]⟩

/-- CapiLin.cpp:144-158. -/
def fnLinControllerSendFrame : Fn :=
  ⟨"LinController_SendFrame",
    [.ptr ⟨0, []⟩, .ptr ⟨1, []⟩, .header ⟨1, []⟩, .read ⟨0, []⟩,
     .view ⟨1, []⟩ (idMake 4 1 1), .call]⟩

/-- CapiLin.cpp:162-170. -/
def fnLinControllerSendFrameHeader : Fn :=
  ⟨"LinController_SendFrameHeader",
    [.ptr ⟨0, []⟩, .read ⟨0, []⟩, .call]⟩

/-- CapiLin.cpp:174-187. -/
def fnLinControllerUpdateTxBuffer : Fn :=
  ⟨"LinController_UpdateTxBuffer",
    [.ptr ⟨0, []⟩, .ptr ⟨1, []⟩, .header ⟨1, []⟩, .read ⟨0, []⟩,
     .view ⟨1, []⟩ (idMake 4 1 1), .call]⟩

/-- CapiLin.cpp:191-199. -/
def fnLinControllerGoToSleep : Fn :=
  ⟨"LinController_GoToSleep",
    [.ptr ⟨0, []⟩, .read ⟨0, []⟩, .call]⟩

/-- CapiLin.cpp:203-211. -/
def fnLinControllerGoToSleepInternal : Fn :=
  ⟨"LinController_GoToSleepInternal",
    [.ptr ⟨0, []⟩, .read ⟨0, []⟩, .call]⟩

/-- CapiLin.cpp:215-223. -/
def fnLinControllerWakeup : Fn :=
  ⟨"LinController_Wakeup",
    [.ptr ⟨0, []⟩, .read ⟨0, []⟩, .call]⟩

/-- CapiLin.cpp:227-235. -/
def fnLinControllerWakeupInternal : Fn :=
  ⟨"LinController_WakeupInternal",
    [.ptr ⟨0, []⟩, .read ⟨0, []⟩, .call]⟩

/-- CapiLin.cpp:239-251. -/
def fnExperimentalLinControllerGetSlaveConfiguration : Fn :=
  ⟨"Experimental_LinController_GetSlaveConfiguration",
    [.ptr ⟨0, []⟩, .ptr ⟨1, []⟩, .read ⟨0, []⟩, .view ⟨1, []⟩ (idMake 4 8 1),
     .call, .write ⟨1, []⟩]⟩

/-- CapiLin.cpp:255-283. -/
def fnLinControllerAddFrameStatusHandler : Fn :=
  ⟨"LinController_AddFrameStatusHandler",
    [.ptr ⟨0, []⟩, .ptr ⟨2, []⟩, .ptr ⟨3, []⟩, .read ⟨0, []⟩,
     .call, .keep ⟨2, []⟩, .write ⟨3, []⟩]⟩

/-- CapiLin.cpp:287-296. -/
def fnLinControllerRemoveFrameStatusHandler : Fn :=
  ⟨"LinController_RemoveFrameStatusHandler",
    [.ptr ⟨0, []⟩, .read ⟨0, []⟩, .call]⟩

/-- CapiLin.cpp:300-319. -/
def fnLinControllerAddGoToSleepHandler : Fn :=
  ⟨"LinController_AddGoToSleepHandler",
    [.ptr ⟨0, []⟩, .ptr ⟨2, []⟩, .ptr ⟨3, []⟩, .read ⟨0, []⟩,
     .call, .keep ⟨2, []⟩, .write ⟨3, []⟩]⟩

/-- CapiLin.cpp:323-331. -/
def fnLinControllerRemoveGoToSleepHandler : Fn :=
  ⟨"LinController_RemoveGoToSleepHandler",
    [.ptr ⟨0, []⟩, .read ⟨0, []⟩, .call]⟩

/-- CapiLin.cpp:335-355. -/
def fnLinControllerAddWakeupHandler : Fn :=
  ⟨"LinController_AddWakeupHandler",
    [.ptr ⟨0, []⟩, .ptr ⟨2, []⟩, .ptr ⟨3, []⟩, .read ⟨0, []⟩,
     .call, .keep ⟨2, []⟩, .write ⟨3, []⟩]⟩

/-- CapiLin.cpp:359-368. -/
def fnLinControllerRemoveWakeupHandler : Fn :=
  ⟨"LinController_RemoveWakeupHandler",
    [.ptr ⟨0, []⟩, .read ⟨0, []⟩, .call]⟩

/-- CapiLin.cpp:372-393. -/
def fnExperimentalLinControllerAddLinSlaveConfigurationHandler : Fn :=
  ⟨"Experimental_LinController_AddLinSlaveConfigurationHandler",
    [.ptr ⟨0, []⟩, .ptr ⟨2, []⟩, .ptr ⟨3, []⟩, .read ⟨0, []⟩,
     .call, .keep ⟨2, []⟩, .write ⟨3, []⟩]⟩

/-- CapiLin.cpp:397-407. -/
def fnExperimentalLinControllerRemoveLinSlaveConfigurationHandler : Fn :=
  ⟨"Experimental_LinController_RemoveLinSlaveConfigurationHandler",
    [.ptr ⟨0, []⟩, .read ⟨0, []⟩, .call]⟩

/-- CapiLin.cpp:411-423. -/
def fnExperimentalLinControllerInitDynamic : Fn :=
  ⟨"Experimental_LinController_InitDynamic",
    [.ptr ⟨0, []⟩, .ptr ⟨1, []⟩, .header ⟨1, []⟩, .read ⟨0, []⟩,
     .view ⟨1, []⟩ (idMake 4 9 1), .call]⟩

/-- CapiLin.cpp:427-447. -/
def fnExperimentalLinControllerAddFrameHeaderHandler : Fn :=
  ⟨"Experimental_LinController_AddFrameHeaderHandler",
    [.ptr ⟨0, []⟩, .ptr ⟨2, []⟩, .ptr ⟨3, []⟩, .read ⟨0, []⟩,
     .call, .keep ⟨2, []⟩, .write ⟨3, []⟩]⟩

/-- CapiLin.cpp:451-461. -/
def fnExperimentalLinControllerRemoveFrameHeaderHandler : Fn :=
  ⟨"Experimental_LinController_RemoveFrameHeaderHandler",
    [.ptr ⟨0, []⟩, .read ⟨0, []⟩, .call]⟩

/-- CapiLin.cpp:465-478. -/
def fnExperimentalLinControllerSendDynamicResponse : Fn :=
  ⟨"Experimental_LinController_SendDynamicResponse",
    [.ptr ⟨0, []⟩, .ptr ⟨1, []⟩, .read ⟨0, []⟩, .view ⟨1, []⟩ (idMake 4 1 1),
     .call]⟩

/-- CapiLogger.cpp:14-30. -/
def fnLoggerLog : Fn :=
  ⟨"Logger_Log",
    [.ptr ⟨0, []⟩, .ptr ⟨2, []⟩, .read ⟨0, []⟩, .read ⟨2, []⟩,
     .call]⟩

/-- CapiLogger.cpp:34-44. -/
def fnLoggerGetLogLevel : Fn :=
  ⟨"Logger_GetLogLevel",
    [.ptr ⟨0, []⟩, .ptr ⟨1, []⟩, .read ⟨0, []⟩, .call,
     .write ⟨1, []⟩]⟩

/-- CapiNetworkSimulator.cpp:404-416. -/
def fnExperimentalNetworkSimulatorCreate : Fn :=
  ⟨"Experimental_NetworkSimulator_Create",
    [.ptr ⟨0, []⟩, .ptr ⟨1, []⟩, .read ⟨1, []⟩, .call,
     .write ⟨0, []⟩]⟩

/-- CapiNetworkSimulator.cpp:420-442. -/
def fnExperimentalNetworkSimulatorSimulateNetwork : Fn :=
  ⟨"Experimental_NetworkSimulator_SimulateNetwork",
    [.ptr ⟨0, []⟩, .ptr ⟨1, []⟩, .ptr ⟨3, []⟩, .ptr ⟨4, []⟩,
     .header ⟨4, []⟩, .read ⟨0, []⟩, .read ⟨1, []⟩, .view ⟨4, []⟩ (idMake 8 2 1),
     .call, .keep ⟨4, ["ProvideSimulatedController"]⟩, .keep ⟨4, ["SimulatedControllerRemoved"]⟩, .keep ⟨4, ["SetEventProducer"]⟩]⟩

/-- CapiNetworkSimulator.cpp:446-456. -/
def fnExperimentalNetworkSimulatorStart : Fn :=
  ⟨"Experimental_NetworkSimulator_Start",
    [.ptr ⟨0, []⟩, .read ⟨0, []⟩, .call]⟩

/-- CapiNetworkSimulator.cpp:474-521. -/
def fnExperimentalCanEventProducerProduce : Fn :=
  ⟨"Experimental_CanEventProducer_Produce",
    [.ptr ⟨0, []⟩, .ptr ⟨1, []⟩, .ptr ⟨2, []⟩, .header ⟨1, []⟩,
     .header ⟨2, []⟩, .read ⟨0, []⟩, .event ⟨1, []⟩ 1 [3, 2, 4, 5], .readIf ⟨1, []⟩ [3] ⟨1, ["frame"]⟩,
     .view ⟨2, []⟩ (idMake 8 1 1), .array ⟨2, ["controllerDescriptors"]⟩ ⟨2, ["numReceivers"]⟩ [], .call]⟩

/-- CapiNetworkSimulator.cpp:539-600. -/
def fnExperimentalFlexRayEventProducerProduce : Fn :=
  ⟨"Experimental_FlexRayEventProducer_Produce",
    [.ptr ⟨0, []⟩, .ptr ⟨1, []⟩, .ptr ⟨2, []⟩, .header ⟨1, []⟩,
     .header ⟨2, []⟩, .read ⟨0, []⟩, .event ⟨1, []⟩ 3 [1, 2, 3, 5, 6, 7], .readIf ⟨1, []⟩ [1, 2] ⟨1, ["frame"]⟩,
     .view ⟨2, []⟩ (idMake 8 1 1), .array ⟨2, ["controllerDescriptors"]⟩ ⟨2, ["numReceivers"]⟩ [], .call]⟩

/-- CapiNetworkSimulator.cpp:618-665. -/
def fnExperimentalEthernetEventProducerProduce : Fn :=
  ⟨"Experimental_EthernetEventProducer_Produce",
    [.ptr ⟨0, []⟩, .ptr ⟨1, []⟩, .ptr ⟨2, []⟩, .header ⟨1, []⟩,
     .header ⟨2, []⟩, .read ⟨0, []⟩, .event ⟨1, []⟩ 2 [1, 2, 3, 4], .readIf ⟨1, []⟩ [1] ⟨1, ["ethernetFrame"]⟩,
     .view ⟨2, []⟩ (idMake 8 1 1), .array ⟨2, ["controllerDescriptors"]⟩ ⟨2, ["numReceivers"]⟩ [], .call]⟩

/-- CapiNetworkSimulator.cpp:683-725. -/
def fnExperimentalLinEventProducerProduce : Fn :=
  ⟨"Experimental_LinEventProducer_Produce",
    [.ptr ⟨0, []⟩, .ptr ⟨1, []⟩, .ptr ⟨2, []⟩, .header ⟨1, []⟩,
     .header ⟨2, []⟩, .read ⟨0, []⟩, .event ⟨1, []⟩ 4 [4, 11, 6], .readIf ⟨1, []⟩ [4] ⟨1, ["frame"]⟩,
     .view ⟨2, []⟩ (idMake 8 1 1), .array ⟨2, ["controllerDescriptors"]⟩ ⟨2, ["numReceivers"]⟩ [], .call]⟩

/-- CapiOrchestration.cpp:43-54. -/
def fnSystemMonitorCreate : Fn :=
  ⟨"SystemMonitor_Create",
    [.ptr ⟨0, []⟩, .ptr ⟨1, []⟩, .read ⟨1, []⟩, .call,
     .write ⟨0, []⟩]⟩

/-- CapiOrchestration.cpp:58-73. -/
def fnLifecycleServiceCreate : Fn :=
  ⟨"LifecycleService_Create",
    [.ptr ⟨0, []⟩, .ptr ⟨1, []⟩, .ptr ⟨2, []⟩, .header ⟨2, []⟩,
     .read ⟨1, []⟩, .view ⟨2, []⟩ (idMake 7 2 1), .call, .write ⟨0, []⟩]⟩

/-- CapiOrchestration.cpp:77-90. -/
def fnTimeSyncServiceCreate : Fn :=
  ⟨"TimeSyncService_Create",
    [.ptr ⟨0, []⟩, .ptr ⟨1, []⟩, .read ⟨1, []⟩, .call,
     .write ⟨0, []⟩]⟩

/-- CapiOrchestration.cpp:94-108. -/
def fnLifecycleServiceSetCommunicationReadyHandler : Fn :=
  ⟨"LifecycleService_SetCommunicationReadyHandler",
    [.ptr ⟨0, []⟩, .ptr ⟨2, []⟩, .read ⟨0, []⟩, .call,
     .keep ⟨2, []⟩]⟩

/-- CapiOrchestration.cpp:112-126. -/
def fnLifecycleServiceSetCommunicationReadyHandlerAsync : Fn :=
  ⟨"LifecycleService_SetCommunicationReadyHandlerAsync",
    [.ptr ⟨0, []⟩, .ptr ⟨2, []⟩, .read ⟨0, []⟩, .call,
     .keep ⟨2, []⟩]⟩

/-- CapiOrchestration.cpp:130-141. -/
def fnLifecycleServiceCompleteCommunicationReadyHandlerAsync : Fn :=
  ⟨"LifecycleService_CompleteCommunicationReadyHandlerAsync",
    [.ptr ⟨0, []⟩, .read ⟨0, []⟩, .call]⟩

/-- CapiOrchestration.cpp:145-158. -/
def fnLifecycleServiceSetStartingHandler : Fn :=
  ⟨"LifecycleService_SetStartingHandler",
    [.ptr ⟨0, []⟩, .ptr ⟨2, []⟩, .read ⟨0, []⟩, .call,
     .keep ⟨2, []⟩]⟩

/-- CapiOrchestration.cpp:162-176. -/
def fnLifecycleServiceSetStopHandler : Fn :=
  ⟨"LifecycleService_SetStopHandler",
    [.ptr ⟨0, []⟩, .ptr ⟨2, []⟩, .read ⟨0, []⟩, .call,
     .keep ⟨2, []⟩]⟩

/-- CapiOrchestration.cpp:180-193. -/
def fnLifecycleServiceSetShutdownHandler : Fn :=
  ⟨"LifecycleService_SetShutdownHandler",
    [.ptr ⟨0, []⟩, .ptr ⟨2, []⟩, .read ⟨0, []⟩, .call,
     .keep ⟨2, []⟩]⟩

/-- CapiOrchestration.cpp:197-212. -/
def fnLifecycleServiceSetAbortHandler : Fn :=
  ⟨"LifecycleService_SetAbortHandler",
    [.ptr ⟨0, []⟩, .ptr ⟨2, []⟩, .read ⟨0, []⟩, .call,
     .keep ⟨2, []⟩]⟩

/-- CapiOrchestration.cpp:265-276. -/
def fnLifecycleServiceStartLifecycle : Fn :=
  ⟨"LifecycleService_StartLifecycle",
    [.ptr ⟨0, []⟩, .read ⟨0, []⟩, .call]⟩

/-- CapiOrchestration.cpp:280-304. -/
def fnLifecycleServiceWaitForLifecycleToComplete : Fn :=
  ⟨"LifecycleService_WaitForLifecycleToComplete",
    [.ptr ⟨0, []⟩, .ptr ⟨1, []⟩, .read ⟨0, []⟩, .call,
     .write ⟨1, []⟩]⟩

/-- CapiOrchestration.cpp:308-321. -/
def fnLifecycleServiceReportError : Fn :=
  ⟨"LifecycleService_ReportError",
    [.ptr ⟨0, []⟩, .ptr ⟨1, []⟩, .read ⟨0, []⟩, .read ⟨1, []⟩,
     .call]⟩

/-- CapiOrchestration.cpp:325-338. -/
def fnLifecycleServiceState : Fn :=
  ⟨"LifecycleService_State",
    [.ptr ⟨0, []⟩, .ptr ⟨1, []⟩, .read ⟨1, []⟩, .call,
     .write ⟨0, []⟩]⟩

/-- CapiOrchestration.cpp:342-362. -/
def fnLifecycleServiceStatus : Fn :=
  ⟨"LifecycleService_Status",
    [.ptr ⟨0, []⟩, .header ⟨0, []⟩, .ptr ⟨1, []⟩, .view ⟨0, []⟩ (idMake 7 1 1),
     .read ⟨1, []⟩, .call, .write ⟨0, []⟩]⟩

/-- CapiOrchestration.cpp:366-381. -/
def fnTimeSyncServiceSetSimulationStepHandler : Fn :=
  ⟨"TimeSyncService_SetSimulationStepHandler",
    [.ptr ⟨0, []⟩, .ptr ⟨2, []⟩, .read ⟨0, []⟩, .call,
     .keep ⟨2, []⟩]⟩

/-- CapiOrchestration.cpp:385-401. -/
def fnTimeSyncServiceSetSimulationStepHandlerAsync : Fn :=
  ⟨"TimeSyncService_SetSimulationStepHandlerAsync",
    [.ptr ⟨0, []⟩, .ptr ⟨2, []⟩, .read ⟨0, []⟩, .call,
     .keep ⟨2, []⟩]⟩

/-- CapiOrchestration.cpp:405-413. -/
def fnTimeSyncServiceCompleteSimulationStep : Fn :=
  ⟨"TimeSyncService_CompleteSimulationStep",
    [.ptr ⟨0, []⟩, .read ⟨0, []⟩, .call]⟩

/-- CapiOrchestration.cpp:417-427. -/
def fnTimeSyncServiceNow : Fn :=
  ⟨"TimeSyncService_Now",
    [.ptr ⟨0, []⟩, .ptr ⟨1, []⟩, .read ⟨0, []⟩, .call,
     .write ⟨1, []⟩]⟩

/-- CapiOrchestration.cpp:431-441. -/
def fnLifecycleServicePause : Fn :=
  ⟨"LifecycleService_Pause",
    [.ptr ⟨0, []⟩, .ptr ⟨1, []⟩, .read ⟨0, []⟩, .read ⟨1, []⟩,
     .call]⟩

/-- CapiOrchestration.cpp:445-453. -/
def fnLifecycleServiceContinue : Fn :=
  ⟨"LifecycleService_Continue",
    [.ptr ⟨0, []⟩, .read ⟨0, []⟩, .call]⟩

/-- CapiOrchestration.cpp:457-466. -/
def fnLifecycleServiceStop : Fn :=
  ⟨"LifecycleService_Stop",
    [.ptr ⟨0, []⟩, .ptr ⟨1, []⟩, .read ⟨0, []⟩, .read ⟨1, []⟩,
     .call]⟩

/-- CapiOrchestration.cpp:471-494. -/
def fnSystemMonitorGetParticipantStatus : Fn :=
  ⟨"SystemMonitor_GetParticipantStatus",
    [.ptr ⟨1, []⟩, .ptr ⟨0, []⟩, .ptr ⟨2, []⟩, .header ⟨0, []⟩,
     .view ⟨0, []⟩ (idMake 7 1 1), .read ⟨1, []⟩, .read ⟨2, []⟩, .call,
     .write ⟨0, []⟩]⟩

/-- CapiOrchestration.cpp:498-509. -/
def fnSystemMonitorGetSystemState : Fn :=
  ⟨"SystemMonitor_GetSystemState",
    [.ptr ⟨1, []⟩, .ptr ⟨0, []⟩, .read ⟨1, []⟩, .call,
     .write ⟨0, []⟩]⟩

/-- CapiOrchestration.cpp:513-531. -/
def fnSystemMonitorAddSystemStateHandler : Fn :=
  ⟨"SystemMonitor_AddSystemStateHandler",
    [.ptr ⟨0, []⟩, .ptr ⟨2, []⟩, .ptr ⟨3, []⟩, .read ⟨0, []⟩,
     .call, .keep ⟨2, []⟩, .write ⟨3, []⟩]⟩

/-- CapiOrchestration.cpp:535-546. -/
def fnSystemMonitorRemoveSystemStateHandler : Fn :=
  ⟨"SystemMonitor_RemoveSystemStateHandler",
    [.ptr ⟨0, []⟩, .read ⟨0, []⟩, .call]⟩

/-- CapiOrchestration.cpp:550-578. -/
def fnSystemMonitorAddParticipantStatusHandler : Fn :=
  ⟨"SystemMonitor_AddParticipantStatusHandler",
    [.ptr ⟨0, []⟩, .ptr ⟨2, []⟩, .ptr ⟨3, []⟩, .read ⟨0, []⟩,
     .call, .keep ⟨2, []⟩, .write ⟨3, []⟩]⟩

/-- CapiOrchestration.cpp:582-593. -/
def fnSystemMonitorRemoveParticipantStatusHandler : Fn :=
  ⟨"SystemMonitor_RemoveParticipantStatusHandler",
    [.ptr ⟨0, []⟩, .read ⟨0, []⟩, .call]⟩

/-- CapiOrchestration.cpp:597-616. -/
def fnSystemMonitorSetParticipantConnectedHandler : Fn :=
  ⟨"SystemMonitor_SetParticipantConnectedHandler",
    [.ptr ⟨0, []⟩, .ptr ⟨2, []⟩, .read ⟨0, []⟩, .call,
     .keep ⟨2, []⟩]⟩

/-- CapiOrchestration.cpp:620-639. -/
def fnSystemMonitorSetParticipantDisconnectedHandler : Fn :=
  ⟨"SystemMonitor_SetParticipantDisconnectedHandler",
    [.ptr ⟨0, []⟩, .ptr ⟨2, []⟩, .read ⟨0, []⟩, .call,
     .keep ⟨2, []⟩]⟩

/-- CapiOrchestration.cpp:643-656. -/
def fnSystemMonitorIsParticipantConnected : Fn :=
  ⟨"SystemMonitor_IsParticipantConnected",
    [.ptr ⟨0, []⟩, .ptr ⟨1, []⟩, .ptr ⟨2, []⟩, .read ⟨0, []⟩,
     .read ⟨1, []⟩, .call, .write ⟨2, []⟩]⟩

/-- CapiOrchestration.cpp:660-672. -/
def fnExperimentalSystemControllerCreate : Fn :=
  ⟨"Experimental_SystemController_Create",
    [.ptr ⟨0, []⟩, .ptr ⟨1, []⟩, .read ⟨1, []⟩, .call,
     .write ⟨0, []⟩]⟩

/-- CapiOrchestration.cpp:676-688. -/
def fnExperimentalSystemControllerAbortSimulation : Fn :=
  ⟨"Experimental_SystemController_AbortSimulation",
    [.ptr ⟨0, []⟩, .read ⟨0, []⟩, .call]⟩

/-- CapiOrchestration.cpp:692-712. -/
def fnExperimentalSystemControllerSetWorkflowConfiguration : Fn :=
  ⟨"Experimental_SystemController_SetWorkflowConfiguration",
    [.ptr ⟨0, []⟩, .ptr ⟨1, []⟩, .read ⟨0, []⟩, .view ⟨1, []⟩ (idMake 7 3 3),
     .read ⟨1, ["requiredParticipantNames"]⟩, .array ⟨1, ["requiredParticipantNames", "strings"]⟩ ⟨1, ["requiredParticipantNames", "numStrings"]⟩ ["*"], .call]⟩

/-- CapiOrchestration.cpp:716-733. -/
def fnExperimentalTimeSyncServiceAddOtherSimulationStepsCompletedHandler : Fn :=
  ⟨"Experimental_TimeSyncService_AddOtherSimulationStepsCompletedHandler",
    [.ptr ⟨0, []⟩, .ptr ⟨2, []⟩, .ptr ⟨3, []⟩, .read ⟨0, []⟩,
     .call, .keep ⟨2, []⟩, .write ⟨3, []⟩]⟩

/-- CapiOrchestration.cpp:737-751. -/
def fnExperimentalTimeSyncServiceRemoveOtherSimulationStepsCompletedHandler : Fn :=
  ⟨"Experimental_TimeSyncService_RemoveOtherSimulationStepsCompletedHandler",
    [.ptr ⟨0, []⟩, .read ⟨0, []⟩, .call]⟩

/-- CapiParticipant.cpp:24-54. -/
def fnParticipantCreate : Fn :=
  ⟨"Participant_Create",
    [.ptr ⟨0, []⟩, .ptr ⟨1, []⟩, .ptr ⟨2, []⟩, .ptr ⟨3, []⟩,
     .read ⟨1, []⟩, .read ⟨2, []⟩, .read ⟨3, []⟩, .call,
     .write ⟨0, []⟩]⟩

/-- CapiParticipant.cpp:58-72. -/
def fnParticipantDestroy : Fn :=
  ⟨"Participant_Destroy",
    [.ptr ⟨0, []⟩, .read ⟨0, []⟩, .call]⟩

/-- CapiParticipant.cpp:76-86. -/
def fnParticipantGetLogger : Fn :=
  ⟨"Participant_GetLogger",
    [.ptr ⟨0, []⟩, .ptr ⟨1, []⟩, .read ⟨1, []⟩, .call,
     .write ⟨0, []⟩]⟩

/-- CapiParticipant.cpp:90-112. -/
def fnParticipantConfigurationFromString : Fn :=
  ⟨"ParticipantConfiguration_FromString",
    [.ptr ⟨0, []⟩, .ptr ⟨1, []⟩, .read ⟨1, []⟩, .call,
     .write ⟨0, []⟩]⟩

/-- CapiParticipant.cpp:116-138. -/
def fnParticipantConfigurationFromFile : Fn :=
  ⟨"ParticipantConfiguration_FromFile",
    [.ptr ⟨0, []⟩, .ptr ⟨1, []⟩, .read ⟨1, []⟩, .call,
     .write ⟨0, []⟩]⟩

/-- CapiParticipant.cpp:142-164. -/
def fnParticipantConfigurationToJson : Fn :=
  ⟨"ParticipantConfiguration_ToJson",
    [.ptr ⟨0, []⟩, .ptr ⟨2, []⟩, .read ⟨0, []⟩, .read ⟨2, []⟩,
     .call, .write ⟨2, []⟩, .copyOut ⟨1, []⟩ ⟨2, []⟩]⟩

/-- CapiParticipant.cpp:167-184. -/
def fnParticipantConfigurationDestroy : Fn :=
  ⟨"ParticipantConfiguration_Destroy",
    [.ptr ⟨0, []⟩, .read ⟨0, []⟩, .call]⟩

/-- CapiRpc.cpp:57-76. -/
def fnRpcServerCreate : Fn :=
  ⟨"RpcServer_Create",
    [.ptr ⟨0, []⟩, .ptr ⟨1, []⟩, .ptr ⟨2, []⟩, .ptr ⟨3, []⟩,
     .ptr ⟨5, []⟩, .read ⟨1, []⟩, .read ⟨2, []⟩, .view ⟨3, []⟩ (idMake 6 3 1),
     .read ⟨3, ["functionName"]⟩, .read ⟨3, ["mediaType"]⟩, .array ⟨3, ["labelList.labels"]⟩ ⟨3, ["labelList.numLabels"]⟩ ["key", "value"], .call,
     .write ⟨0, []⟩, .keep ⟨5, []⟩]⟩

/-- CapiRpc.cpp:80-92. -/
def fnRpcServerSubmitResult : Fn :=
  ⟨"RpcServer_SubmitResult",
    [.ptr ⟨0, []⟩, .ptr ⟨1, []⟩, .ptr ⟨2, []⟩, .read ⟨0, []⟩,
     .read ⟨1, []⟩, .read ⟨2, []⟩, .array ⟨2, ["data"]⟩ ⟨2, ["size"]⟩ [], .call]⟩

/-- CapiRpc.cpp:96-106. -/
def fnRpcServerSetCallHandler : Fn :=
  ⟨"RpcServer_SetCallHandler",
    [.ptr ⟨0, []⟩, .ptr ⟨2, []⟩, .read ⟨0, []⟩, .call,
     .keep ⟨2, []⟩]⟩

/-- CapiRpc.cpp:110-129. -/
def fnRpcClientCreate : Fn :=
  ⟨"RpcClient_Create",
    [.ptr ⟨0, []⟩, .ptr ⟨1, []⟩, .ptr ⟨2, []⟩, .ptr ⟨3, []⟩,
     .ptr ⟨5, []⟩, .read ⟨1, []⟩, .read ⟨2, []⟩, .view ⟨3, []⟩ (idMake 6 3 1),
     .read ⟨3, ["functionName"]⟩, .read ⟨3, ["mediaType"]⟩, .array ⟨3, ["labelList.labels"]⟩ ⟨3, ["labelList.numLabels"]⟩ ["key", "value"], .call,
     .write ⟨0, []⟩, .keep ⟨5, []⟩]⟩

/-- CapiRpc.cpp:133-143. -/
def fnRpcClientCall : Fn :=
  ⟨"RpcClient_Call",
    [.ptr ⟨0, []⟩, .ptr ⟨1, []⟩, .read ⟨0, []⟩, .read ⟨1, []⟩,
     .array ⟨1, ["data"]⟩ ⟨1, ["size"]⟩ [], .call]⟩

/-- CapiRpc.cpp:146-157. -/
def fnRpcClientCallWithTimeout : Fn :=
  ⟨"RpcClient_CallWithTimeout",
    [.ptr ⟨0, []⟩, .ptr ⟨1, []⟩, .read ⟨0, []⟩, .read ⟨1, []⟩,
     .array ⟨1, ["data"]⟩ ⟨1, ["size"]⟩ [], .call]⟩

/-- CapiRpc.cpp:161-171. -/
def fnRpcClientSetCallResultHandler : Fn :=
  ⟨"RpcClient_SetCallResultHandler",
    [.ptr ⟨0, []⟩, .ptr ⟨2, []⟩, .read ⟨0, []⟩, .call,
     .keep ⟨2, []⟩]⟩

/-- CapiUtils.cpp:31-96. -/
def fnReturnCodeToString : Fn :=
  ⟨"ReturnCodeToString",
    [.ptrSilent ⟨0, []⟩, .oneOf ⟨1, []⟩ (List.range 17), .call, .write ⟨0, []⟩]⟩

/-- CapiVendor.cpp:20-46. -/
def fnVendorVectorSilKitRegistryCreate : Fn :=
  ⟨"Vendor_Vector_SilKitRegistry_Create",
    [.ptr ⟨0, []⟩, .ptr ⟨1, []⟩, .read ⟨1, []⟩, .call,
     .write ⟨0, []⟩]⟩

/-- CapiVendor.cpp:50-60. -/
def fnVendorVectorSilKitRegistryDestroy : Fn :=
  ⟨"Vendor_Vector_SilKitRegistry_Destroy",
    [.ptr ⟨0, []⟩, .read ⟨0, []⟩, .call]⟩

/-- CapiVendor.cpp:64-78. -/
def fnVendorVectorSilKitRegistrySetAllDisconnectedHandler : Fn :=
  ⟨"Vendor_Vector_SilKitRegistry_SetAllDisconnectedHandler",
    [.ptr ⟨0, []⟩, .ptr ⟨2, []⟩, .read ⟨0, []⟩, .call,
     .keep ⟨2, []⟩]⟩

/-- CapiVendor.cpp:82-94. -/
def fnVendorVectorSilKitRegistryGetLogger : Fn :=
  ⟨"Vendor_Vector_SilKitRegistry_GetLogger",
    [.ptr ⟨0, []⟩, .ptr ⟨1, []⟩, .read ⟨1, []⟩, .call,
     .write ⟨0, []⟩]⟩

/-- CapiVendor.cpp:98-114. -/
def fnVendorVectorSilKitRegistryStartListening : Fn :=
  ⟨"Vendor_Vector_SilKitRegistry_StartListening",
    [.ptr ⟨0, []⟩, .ptr ⟨1, []⟩, .ptr ⟨2, []⟩, .read ⟨0, []⟩,
     .read ⟨1, []⟩, .call, .write ⟨2, []⟩]⟩

/-- CapiVersion.cpp:10-17. -/
def fnVersionMajor : Fn :=
  ⟨"Version_Major",
    [.ptr ⟨0, []⟩, .call, .write ⟨0, []⟩]⟩

/-- CapiVersion.cpp:21-28. -/
def fnVersionMinor : Fn :=
  ⟨"Version_Minor",
    [.ptr ⟨0, []⟩, .call, .write ⟨0, []⟩]⟩

/-- CapiVersion.cpp:32-39. -/
def fnVersionPatch : Fn :=
  ⟨"Version_Patch",
    [.ptr ⟨0, []⟩, .call, .write ⟨0, []⟩]⟩

/-- CapiVersion.cpp:43-50. -/
def fnVersionBuildNumber : Fn :=
  ⟨"Version_BuildNumber",
    [.ptr ⟨0, []⟩, .call, .write ⟨0, []⟩]⟩

/-- CapiVersion.cpp:54-61. -/
def fnVersionString : Fn :=
  ⟨"Version_String",
    [.ptr ⟨0, []⟩, .call, .write ⟨0, []⟩]⟩

/-- CapiVersion.cpp:65-72. -/
def fnVersionVersionSuffix : Fn :=
  ⟨"Version_VersionSuffix",
    [.ptr ⟨0, []⟩, .call, .write ⟨0, []⟩]⟩

/-- CapiVersion.cpp:76-83. -/
def fnVersionGitHash : Fn :=
  ⟨"Version_GitHash",
    [.ptr ⟨0, []⟩, .call, .write ⟨0, []⟩]⟩

/-- All of them. -/
def api : List Fn :=
  [fnCanControllerCreate, fnCanControllerAddFrameHandler, fnCanControllerRemoveFrameHandler,
   fnCanControllerAddFrameTransmitHandler, fnCanControllerRemoveFrameTransmitHandler, fnCanControllerAddStateChangeHandler,
   fnCanControllerRemoveStateChangeHandler, fnCanControllerAddErrorStateChangeHandler, fnCanControllerRemoveErrorStateChangeHandler,
   fnCanControllerSetBaudRate, fnCanControllerSendFrame, fnCanControllerStart,
   fnCanControllerStop, fnCanControllerReset, fnCanControllerSleep,
   fnDataPublisherCreate, fnDataPublisherPublish, fnDataSubscriberCreate,
   fnDataSubscriberSetDataMessageHandler, fnEthernetControllerCreate, fnEthernetControllerActivate,
   fnEthernetControllerDeactivate, fnEthernetControllerAddFrameHandler, fnEthernetControllerRemoveFrameHandler,
   fnEthernetControllerAddFrameTransmitHandler, fnEthernetControllerRemoveFrameTransmitHandler, fnEthernetControllerAddStateChangeHandler,
   fnEthernetControllerRemoveStateChangeHandler, fnEthernetControllerAddBitrateChangeHandler, fnEthernetControllerRemoveBitrateChangeHandler,
   fnEthernetControllerSendFrame, fnFlexrayControllerCreate, fnFlexrayControllerConfigure,
   fnFlexrayControllerReconfigureTxBuffer, fnFlexrayControllerUpdateTxBuffer, fnFlexrayControllerExecuteCmd,
   fnFlexrayControllerAddFrameHandler, fnFlexrayControllerRemoveFrameHandler, fnFlexrayControllerAddFrameTransmitHandler,
   fnFlexrayControllerRemoveFrameTransmitHandler, fnFlexrayControllerAddWakeupHandler, fnFlexrayControllerRemoveWakeupHandler,
   fnFlexrayControllerAddPocStatusHandler, fnFlexrayControllerRemovePocStatusHandler, fnFlexrayControllerAddSymbolHandler,
   fnFlexrayControllerRemoveSymbolHandler, fnFlexrayControllerAddSymbolTransmitHandler, fnFlexrayControllerRemoveSymbolTransmitHandler,
   fnFlexrayControllerAddCycleStartHandler, fnFlexrayControllerRemoveCycleStartHandler, fnLinControllerCreate,
   fnLinControllerInit, fnLinControllerSetFrameResponse, fnLinControllerStatus,
   fnLinControllerSendFrame, fnLinControllerSendFrameHeader, fnLinControllerUpdateTxBuffer,
   fnLinControllerGoToSleep, fnLinControllerGoToSleepInternal, fnLinControllerWakeup,
   fnLinControllerWakeupInternal, fnExperimentalLinControllerGetSlaveConfiguration, fnLinControllerAddFrameStatusHandler,
   fnLinControllerRemoveFrameStatusHandler, fnLinControllerAddGoToSleepHandler, fnLinControllerRemoveGoToSleepHandler,
   fnLinControllerAddWakeupHandler, fnLinControllerRemoveWakeupHandler, fnExperimentalLinControllerAddLinSlaveConfigurationHandler,
   fnExperimentalLinControllerRemoveLinSlaveConfigurationHandler, fnExperimentalLinControllerInitDynamic, fnExperimentalLinControllerAddFrameHeaderHandler,
   fnExperimentalLinControllerRemoveFrameHeaderHandler, fnExperimentalLinControllerSendDynamicResponse, fnLoggerLog,
   fnLoggerGetLogLevel, fnExperimentalNetworkSimulatorCreate, fnExperimentalNetworkSimulatorSimulateNetwork,
   fnExperimentalNetworkSimulatorStart, fnExperimentalCanEventProducerProduce, fnExperimentalFlexRayEventProducerProduce,
   fnExperimentalEthernetEventProducerProduce, fnExperimentalLinEventProducerProduce, fnSystemMonitorCreate,
   fnLifecycleServiceCreate, fnTimeSyncServiceCreate, fnLifecycleServiceSetCommunicationReadyHandler,
   fnLifecycleServiceSetCommunicationReadyHandlerAsync, fnLifecycleServiceCompleteCommunicationReadyHandlerAsync, fnLifecycleServiceSetStartingHandler,
   fnLifecycleServiceSetStopHandler, fnLifecycleServiceSetShutdownHandler, fnLifecycleServiceSetAbortHandler,
   fnLifecycleServiceStartLifecycle, fnLifecycleServiceWaitForLifecycleToComplete, fnLifecycleServiceReportError,
   fnLifecycleServiceState, fnLifecycleServiceStatus, fnTimeSyncServiceSetSimulationStepHandler,
   fnTimeSyncServiceSetSimulationStepHandlerAsync, fnTimeSyncServiceCompleteSimulationStep, fnTimeSyncServiceNow,
   fnLifecycleServicePause, fnLifecycleServiceContinue, fnLifecycleServiceStop,
   fnSystemMonitorGetParticipantStatus, fnSystemMonitorGetSystemState, fnSystemMonitorAddSystemStateHandler,
   fnSystemMonitorRemoveSystemStateHandler, fnSystemMonitorAddParticipantStatusHandler, fnSystemMonitorRemoveParticipantStatusHandler,
   fnSystemMonitorSetParticipantConnectedHandler, fnSystemMonitorSetParticipantDisconnectedHandler, fnSystemMonitorIsParticipantConnected,
   fnExperimentalSystemControllerCreate, fnExperimentalSystemControllerAbortSimulation, fnExperimentalSystemControllerSetWorkflowConfiguration,
   fnExperimentalTimeSyncServiceAddOtherSimulationStepsCompletedHandler, fnExperimentalTimeSyncServiceRemoveOtherSimulationStepsCompletedHandler, fnParticipantCreate,
   fnParticipantDestroy, fnParticipantGetLogger, fnParticipantConfigurationFromString,
   fnParticipantConfigurationFromFile, fnParticipantConfigurationToJson, fnParticipantConfigurationDestroy,
   fnRpcServerCreate, fnRpcServerSubmitResult, fnRpcServerSetCallHandler,
   fnRpcClientCreate, fnRpcClientCall, fnRpcClientCallWithTimeout,
   fnRpcClientSetCallResultHandler, fnReturnCodeToString, fnVendorVectorSilKitRegistryCreate,
   fnVendorVectorSilKitRegistryDestroy, fnVendorVectorSilKitRegistrySetAllDisconnectedHandler, fnVendorVectorSilKitRegistryGetLogger,
   fnVendorVectorSilKitRegistryStartListening, fnVersionMajor, fnVersionMinor,
   fnVersionPatch, fnVersionBuildNumber, fnVersionString,
   fnVersionVersionSuffix, fnVersionGitHash]

end SilKit.CApi
