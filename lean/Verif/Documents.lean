import Verif.Model.Parse

/-!
# The documents of `/repo/tests/defs`

The integration tests on whole documents that the kernel can run: the number of definitions, as in `/repo/tests/webidl.rs`. Like
`Verif/Conformance.lean` these are tests of the model and not proofs of properties. The texts are copies of the files, line by line.
-/

namespace Verif.Conformance
open Nom

set_option maxRecDepth 100000

/-- The number of definitions in a document, `/repo/tests/webidl.rs:36,44`. -/
def number (s : Str) : Option Nat :=
  match weedleParse s with
  | .ok ds => some ds.length
  | _ => none

/-- The text with these lines. -/
def text (ls : List Str) : Str := ls.flatMap (· ++ ['\n'])

/-- `/repo/tests/defs/streams.webidl:1-204` -/
def streams : Str := text [
  c!"[Exposed=(Window,Worker,Worklet)]",
  c!"interface ReadableStream {",
  c!"  constructor(optional object underlyingSource, optional QueuingStrategy strategy = {});",
  c!"",
  c!"  readonly attribute boolean locked;",
  c!"",
  c!"  Promise<undefined> cancel(optional any reason);",
  c!"  ReadableStreamReader getReader(optional ReadableStreamGetReaderOptions options = {});",
  c!"  ReadableStream pipeThrough(ReadableWritablePair transform, optional StreamPipeOptions options = {});",
  c!"  Promise<undefined> pipeTo(WritableStream destination, optional StreamPipeOptions options = {});",
  c!"  sequence<ReadableStream> tee();",
  c!"",
  c!"  async iterable<any>(optional ReadableStreamIteratorOptions options = {});",
  c!"};",
  c!"",
  c!"typedef (ReadableStreamDefaultReader or ReadableStreamBYOBReader) ReadableStreamReader;",
  c!"",
  c!"enum ReadableStreamReaderMode { \"byob\" };",
  c!"",
  c!"dictionary ReadableStreamGetReaderOptions {",
  c!"  ReadableStreamReaderMode mode;",
  c!"};",
  c!"",
  c!"dictionary ReadableStreamIteratorOptions {",
  c!"  boolean preventCancel = false;",
  c!"};",
  c!"",
  c!"dictionary ReadableWritablePair {",
  c!"  required ReadableStream readable;",
  c!"  required WritableStream writable;",
  c!"};",
  c!"",
  c!"dictionary StreamPipeOptions {",
  c!"  boolean preventClose = false;",
  c!"  boolean preventAbort = false;",
  c!"  boolean preventCancel = false;",
  c!"  AbortSignal signal;",
  c!"};",
  c!"",
  c!"dictionary UnderlyingSource {",
  c!"  UnderlyingSourceStartCallback start;",
  c!"  UnderlyingSourcePullCallback pull;",
  c!"  UnderlyingSourceCancelCallback cancel;",
  c!"  ReadableStreamType type;",
  c!"  [EnforceRange] unsigned long long autoAllocateChunkSize;",
  c!"};",
  c!"",
  c!"typedef (ReadableStreamDefaultController or ReadableByteStreamController) ReadableStreamController;",
  c!"",
  c!"callback UnderlyingSourceStartCallback = any (ReadableStreamController controller);",
  c!"callback UnderlyingSourcePullCallback = Promise<undefined> (ReadableStreamController controller);",
  c!"callback UnderlyingSourceCancelCallback = Promise<undefined> (optional any reason);",
  c!"",
  c!"enum ReadableStreamType { \"bytes\" };",
  c!"",
  c!"[Exposed=(Window,Worker,Worklet)]",
  c!"interface ReadableStreamDefaultReader {",
  c!"  constructor(ReadableStream stream);",
  c!"",
  c!"  readonly attribute Promise<undefined> closed;",
  c!"",
  c!"  Promise<undefined> cancel(optional any reason);",
  c!"  Promise<any> read();",
  c!"  undefined releaseLock();",
  c!"};",
  c!"",
  c!"[Exposed=(Window,Worker,Worklet)]",
  c!"interface ReadableStreamBYOBReader {",
  c!"  constructor(ReadableStream stream);",
  c!"",
  c!"  readonly attribute Promise<undefined> closed;",
  c!"",
  c!"  Promise<undefined> cancel(optional any reason);",
  c!"  Promise<any> read(ArrayBufferView view);",
  c!"  undefined releaseLock();",
  c!"};",
  c!"",
  c!"[Exposed=(Window,Worker,Worklet)]",
  c!"interface ReadableStreamDefaultController {",
  c!"  readonly attribute unrestricted double? desiredSize;",
  c!"",
  c!"  undefined close();",
  c!"  undefined enqueue(optional any chunk);",
  c!"  undefined error(optional any e);",
  c!"};",
  c!"",
  c!"[Exposed=(Window,Worker,Worklet)]",
  c!"interface ReadableByteStreamController {",
  c!"  readonly attribute ReadableStreamBYOBRequest? byobRequest;",
  c!"  readonly attribute unrestricted double? desiredSize;",
  c!"",
  c!"  undefined close();",
  c!"  undefined enqueue(ArrayBufferView chunk);",
  c!"  undefined error(optional any e);",
  c!"};",
  c!"",
  c!"[Exposed=(Window,Worker,Worklet)]",
  c!"interface ReadableStreamBYOBRequest {",
  c!"  readonly attribute ArrayBufferView? view;",
  c!"",
  c!"  undefined respond([EnforceRange] unsigned long long bytesWritten);",
  c!"  undefined respondWithNewView(ArrayBufferView view);",
  c!"};",
  c!"",
  c!"[Exposed=(Window,Worker,Worklet)]",
  c!"interface WritableStream {",
  c!"  constructor(optional object underlyingSink, optional QueuingStrategy strategy = {});",
  c!"",
  c!"  readonly attribute boolean locked;",
  c!"",
  c!"  Promise<undefined> abort(optional any reason);",
  c!"  Promise<undefined> close();",
  c!"  WritableStreamDefaultWriter getWriter();",
  c!"};",
  c!"",
  c!"dictionary UnderlyingSink {",
  c!"  UnderlyingSinkStartCallback start;",
  c!"  UnderlyingSinkWriteCallback write;",
  c!"  UnderlyingSinkCloseCallback close;",
  c!"  UnderlyingSinkAbortCallback abort;",
  c!"  any type;",
  c!"};",
  c!"",
  c!"callback UnderlyingSinkStartCallback = any (WritableStreamDefaultController controller);",
  c!"callback UnderlyingSinkWriteCallback = Promise<undefined> (WritableStreamDefaultController controller, optional any chunk);",
  c!"callback UnderlyingSinkCloseCallback = Promise<undefined> ();",
  c!"callback UnderlyingSinkAbortCallback = Promise<undefined> (optional any reason);",
  c!"",
  c!"[Exposed=(Window,Worker,Worklet)]",
  c!"interface WritableStreamDefaultWriter {",
  c!"  constructor(WritableStream stream);",
  c!"",
  c!"  readonly attribute Promise<undefined> closed;",
  c!"  readonly attribute unrestricted double? desiredSize;",
  c!"  readonly attribute Promise<undefined> ready;",
  c!"",
  c!"  Promise<undefined> abort(optional any reason);",
  c!"  Promise<undefined> close();",
  c!"  undefined releaseLock();",
  c!"  Promise<undefined> write(optional any chunk);",
  c!"};",
  c!"",
  c!"[Exposed=(Window,Worker,Worklet)]",
  c!"interface WritableStreamDefaultController {",
  c!"  undefined error(optional any e);",
  c!"};",
  c!"",
  c!"[Exposed=(Window,Worker,Worklet)]",
  c!"interface TransformStream {",
  c!"  constructor(optional object transformer,",
  c!"              optional QueuingStrategy writableStrategy = {},",
  c!"              optional QueuingStrategy readableStrategy = {});",
  c!"",
  c!"  readonly attribute ReadableStream readable;",
  c!"  readonly attribute WritableStream writable;",
  c!"};",
  c!"",
  c!"dictionary Transformer {",
  c!"  TransformerStartCallback start;",
  c!"  TransformerTransformCallback transform;",
  c!"  TransformerFlushCallback flush;",
  c!"  any readableType;",
  c!"  any writableType;",
  c!"};",
  c!"",
  c!"callback TransformerStartCallback = any (TransformStreamDefaultController controller);",
  c!"callback TransformerFlushCallback = Promise<undefined> (TransformStreamDefaultController controller);",
  c!"callback TransformerTransformCallback = Promise<undefined> (TransformStreamDefaultController controller, optional any chunk);",
  c!"",
  c!"[Exposed=(Window,Worker,Worklet)]",
  c!"interface TransformStreamDefaultController {",
  c!"  readonly attribute unrestricted double? desiredSize;",
  c!"",
  c!"  undefined enqueue(optional any chunk);",
  c!"  undefined error(optional any reason);",
  c!"  undefined terminate();",
  c!"};",
  c!"",
  c!"dictionary QueuingStrategy {",
  c!"  unrestricted double highWaterMark;",
  c!"  QueuingStrategySize size;",
  c!"};",
  c!"",
  c!"callback QueuingStrategySize = unrestricted double (optional any chunk);",
  c!"",
  c!"dictionary QueuingStrategyInit {",
  c!"  required unrestricted double highWaterMark;",
  c!"};",
  c!"",
  c!"[Exposed=(Window,Worker,Worklet)]",
  c!"interface ByteLengthQueuingStrategy {",
  c!"  constructor(QueuingStrategyInit init);",
  c!"",
  c!"  readonly attribute unrestricted double highWaterMark;",
  c!"  readonly attribute Function size;",
  c!"};",
  c!"",
  c!"[Exposed=(Window,Worker,Worklet)]",
  c!"interface CountQueuingStrategy {",
  c!"  constructor(QueuingStrategyInit init);",
  c!"",
  c!"  readonly attribute unrestricted double highWaterMark;",
  c!"  readonly attribute Function size;",
  c!"};"]

/-- `/repo/tests/webidl.rs:40-45` -/
example : number streams = some 37 := by decide +kernel

/-- `/repo/tests/defs/mediacapture-streams.webidl:1-246` -/
def mediacapture : Str := text [
  c!"[Exposed=Window,",
  c!" Constructor,",
  c!" Constructor(MediaStream stream),",
  c!" Constructor(sequence<MediaStreamTrack> tracks)]",
  c!"interface MediaStream : EventTarget {",
  c!"    readonly        attribute DOMString id;",
  c!"    sequence<MediaStreamTrack> getAudioTracks();",
  c!"    sequence<MediaStreamTrack> getVideoTracks();",
  c!"    sequence<MediaStreamTrack> getTracks();",
  c!"    MediaStreamTrack? getTrackById(DOMString trackId);",
  c!"    undefined addTrack(MediaStreamTrack track);",
  c!"    undefined removeTrack(MediaStreamTrack track);",
  c!"    MediaStream clone();",
  c!"    readonly        attribute boolean active;",
  c!"                    attribute EventHandler onaddtrack;",
  c!"                    attribute EventHandler onremovetrack;",
  c!"};",
  c!"",
  c!"[Exposed=Window]",
  c!"interface MediaStreamTrack : EventTarget {",
  c!"    readonly        attribute DOMString kind;",
  c!"    readonly        attribute DOMString id;",
  c!"    readonly        attribute DOMString label;",
  c!"                    attribute boolean enabled;",
  c!"    readonly        attribute boolean muted;",
  c!"                    attribute EventHandler onmute;",
  c!"                    attribute EventHandler onunmute;",
  c!"    readonly        attribute MediaStreamTrackState readyState;",
  c!"                    attribute EventHandler onended;",
  c!"    MediaStreamTrack clone();",
  c!"    undefined stop();",
  c!"    MediaTrackCapabilities getCapabilities();",
  c!"    MediaTrackConstraints getConstraints();",
  c!"    MediaTrackSettings getSettings();",
  c!"    Promise<undefined> applyConstraints(optional MediaTrackConstraints constraints = {});",
  c!"};",
  c!"",
  c!"enum MediaStreamTrackState {",
  c!"    \"live\",",
  c!"    \"ended\"",
  c!"};",
  c!"",
  c!"dictionary MediaTrackSupportedConstraints {",
  c!"             boolean width = true;",
  c!"             boolean height = true;",
  c!"             boolean aspectRatio = true;",
  c!"             boolean frameRate = true;",
  c!"             boolean facingMode = true;",
  c!"             boolean resizeMode = true;",
  c!"             boolean volume = true;",
  c!"             boolean sampleRate = true;",
  c!"             boolean sampleSize = true;",
  c!"             boolean echoCancellation = true;",
  c!"             boolean autoGainControl = true;",
  c!"             boolean noiseSuppression = true;",
  c!"             boolean latency = true;",
  c!"             boolean channelCount = true;",
  c!"             boolean deviceId = true;",
  c!"             boolean groupId = true;",
  c!"};",
  c!"",
  c!"dictionary MediaTrackCapabilities {",
  c!"             ULongRange width;",
  c!"             ULongRange height;",
  c!"             DoubleRange aspectRatio;",
  c!"             DoubleRange frameRate;",
  c!"             sequence<DOMString> facingMode;",
  c!"             sequence<DOMString> resizeMode;",
  c!"             DoubleRange volume;",
  c!"             ULongRange sampleRate;",
  c!"             ULongRange sampleSize;",
  c!"             sequence<boolean> echoCancellation;",
  c!"             sequence<boolean> autoGainControl;",
  c!"             sequence<boolean> noiseSuppression;",
  c!"             DoubleRange latency;",
  c!"             ULongRange channelCount;",
  c!"             DOMString deviceId;",
  c!"             DOMString groupId;",
  c!"};",
  c!"",
  c!"dictionary MediaTrackConstraints : MediaTrackConstraintSet {",
  c!"             sequence<MediaTrackConstraintSet> advanced;",
  c!"};",
  c!"",
  c!"dictionary MediaTrackConstraintSet {",
  c!"             ConstrainULong width;",
  c!"             ConstrainULong height;",
  c!"             ConstrainDouble aspectRatio;",
  c!"             ConstrainDouble frameRate;",
  c!"             ConstrainDOMString facingMode;",
  c!"             ConstrainDOMString resizeMode;",
  c!"             ConstrainDouble volume;",
  c!"             ConstrainULong sampleRate;",
  c!"             ConstrainULong sampleSize;",
  c!"             ConstrainBoolean echoCancellation;",
  c!"             ConstrainBoolean autoGainControl;",
  c!"             ConstrainBoolean noiseSuppression;",
  c!"             ConstrainDouble latency;",
  c!"             ConstrainULong channelCount;",
  c!"             ConstrainDOMString deviceId;",
  c!"             ConstrainDOMString groupId;",
  c!"};",
  c!"",
  c!"dictionary MediaTrackSettings {",
  c!"             long width;",
  c!"             long height;",
  c!"             double aspectRatio;",
  c!"             double frameRate;",
  c!"             DOMString facingMode;",
  c!"             DOMString resizeMode;",
  c!"             double volume;",
  c!"             long sampleRate;",
  c!"             long sampleSize;",
  c!"             boolean echoCancellation;",
  c!"             boolean autoGainControl;",
  c!"             boolean noiseSuppression;",
  c!"             double latency;",
  c!"             long channelCount;",
  c!"             DOMString deviceId;",
  c!"             DOMString groupId;",
  c!"};",
  c!"",
  c!"enum VideoFacingModeEnum {",
  c!"    \"user\",",
  c!"    \"environment\",",
  c!"    \"left\",",
  c!"    \"right\"",
  c!"};",
  c!"",
  c!"enum VideoResizeModeEnum {",
  c!"    \"none\",",
  c!"    \"crop-and-scale\"",
  c!"};",
  c!"",
  c!"[Exposed=Window,",
  c!" Constructor(DOMString type, MediaStreamTrackEventInit eventInitDict)]",
  c!"interface MediaStreamTrackEvent : Event {",
  c!"    [SameObject]",
  c!"    readonly        attribute MediaStreamTrack track;",
  c!"};",
  c!"",
  c!"dictionary MediaStreamTrackEventInit : EventInit {",
  c!"    required MediaStreamTrack track;",
  c!"};",
  c!"",
  c!"partial interface Navigator {",
  c!"    [SameObject, SecureContext]",
  c!"    readonly        attribute MediaDevices mediaDevices;",
  c!"};",
  c!"",
  c!"[Exposed=Window, SecureContext]",
  c!"interface MediaDevices : EventTarget {",
  c!"                    attribute EventHandler ondevicechange;",
  c!"    Promise<sequence<MediaDeviceInfo>> enumerateDevices();",
  c!"};",
  c!"",
  c!"[Exposed=Window, SecureContext]",
  c!"interface MediaDeviceInfo {",
  c!"    readonly        attribute DOMString deviceId;",
  c!"    readonly        attribute MediaDeviceKind kind;",
  c!"    readonly        attribute DOMString label;",
  c!"    readonly        attribute DOMString groupId;",
  c!"    [Default] object toJSON();",
  c!"};",
  c!"",
  c!"enum MediaDeviceKind {",
  c!"    \"audioinput\",",
  c!"    \"audiooutput\",",
  c!"    \"videoinput\"",
  c!"};",
  c!"",
  c!"[Exposed=Window] interface InputDeviceInfo : MediaDeviceInfo {",
  c!"    MediaTrackCapabilities getCapabilities();",
  c!"};",
  c!"",
  c!"partial interface Navigator {",
  c!"    [SecureContext]",
  c!"    undefined getUserMedia(MediaStreamConstraints constraints, NavigatorUserMediaSuccessCallback successCallback, NavigatorUserMediaErrorCallback errorCallback);",
  c!"};",
  c!"",
  c!"partial interface MediaDevices {",
  c!"    MediaTrackSupportedConstraints getSupportedConstraints();",
  c!"    Promise<MediaStream> getUserMedia(optional MediaStreamConstraints constraints = {});",
  c!"};",
  c!"",
  c!"dictionary MediaStreamConstraints {",
  c!"             (boolean or MediaTrackConstraints) video = false;",
  c!"             (boolean or MediaTrackConstraints) audio = false;",
  c!"};",
  c!"",
  c!"callback NavigatorUserMediaSuccessCallback = undefined (MediaStream stream);",
  c!"",
  c!"callback NavigatorUserMediaErrorCallback = undefined (MediaStreamError error);",
  c!"",
  c!"typedef object MediaStreamError;",
  c!"",
  c!"dictionary DoubleRange {",
  c!"             double max;",
  c!"             double min;",
  c!"};",
  c!"",
  c!"dictionary ConstrainDoubleRange : DoubleRange {",
  c!"             double exact;",
  c!"             double ideal;",
  c!"};",
  c!"",
  c!"dictionary ULongRange {",
  c!"             [Clamp] unsigned long max;",
  c!"             [Clamp] unsigned long min;",
  c!"};",
  c!"",
  c!"dictionary ConstrainULongRange : ULongRange {",
  c!"             [Clamp] unsigned long exact;",
  c!"             [Clamp] unsigned long ideal;",
  c!"};",
  c!"",
  c!"dictionary ConstrainBooleanParameters {",
  c!"             boolean exact;",
  c!"             boolean ideal;",
  c!"};",
  c!"",
  c!"dictionary ConstrainDOMStringParameters {",
  c!"             (DOMString or sequence<DOMString>) exact;",
  c!"             (DOMString or sequence<DOMString>) ideal;",
  c!"};",
  c!"",
  c!"typedef ([Clamp] unsigned long or ConstrainULongRange) ConstrainULong;",
  c!"",
  c!"typedef (double or ConstrainDoubleRange) ConstrainDouble;",
  c!"",
  c!"typedef (boolean or ConstrainBooleanParameters) ConstrainBoolean;",
  c!"",
  c!"typedef (DOMString or sequence<DOMString> or ConstrainDOMStringParameters) ConstrainDOMString;",
  c!"",
  c!"dictionary Capabilities {",
  c!"};",
  c!"",
  c!"dictionary Settings {",
  c!"};",
  c!"",
  c!"dictionary ConstraintSet {",
  c!"};",
  c!"",
  c!"dictionary Constraints : ConstraintSet {",
  c!"             sequence<ConstraintSet> advanced;",
  c!"};"]

/-- `/repo/tests/webidl.rs:32-37` -/
example : number mediacapture = some 37 := by decide +kernel

end Verif.Conformance
