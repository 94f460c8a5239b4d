{"id": "C01", "title": "Parsing is memory safe and total", "statement": "uecho_message_parse(msg, data, len) terminates, returns true or false, and reads no byte outside data[0..len) and no property slot outside the arrays it allocated, whatever the datagram and whatever message object is being reused.", "quantifier": "all byte strings of every length; all prior message states reachable through the public API", "why_tests_cant": "The input is attacker-controlled and unbounded; a test suite samples frames, an out-of-bounds read needs one bad combination of OPC/PDC/length.", "anchors": ["src/uecho/message.c: uecho_message_parse, uecho_message_property_parse, uecho_message_setopcep"]}
{"id": "C02", "title": "Serialise then parse is the identity", "statement": "For every message built with the API whose property values are at most 255 bytes, parsing the bytes returned by uecho_message_getbytes succeeds and yields a message with the same TID, SEOJ, DEOJ, ESV and the same sequence of (EPC, EDT) pairs in each section.", "quantifier": "all messages with default EHD, any ESV (plain and SetGet), any number of properties the API can hold", "why_tests_cant": "Round trips must hold for every message shape; tests try a handful.", "anchors": ["src/uecho/message.c: uecho_message_getbytes, uecho_message_parse"]}
{"id": "C03", "title": "Parse then serialise reproduces the frame", "statement": "If uecho_message_parse accepts data, then uecho_message_getbytes on the parsed message returns exactly the bytes of the frame, and any remaining input bytes are trailing bytes that were ignored.", "quantifier": "all byte strings accepted by the parser", "why_tests_cant": "Canonicity is a statement about all accepted inputs.", "anchors": ["src/uecho/message.c: uecho_message_parse, uecho_message_getbytes"]}
{"id": "C04", "title": "The parser accepts exactly the ECHONET Lite frame grammar", "statement": "uecho_message_parse returns true iff the datagram starts with a well-formed ECHONET Lite format-1 frame (0x1081, TID, SEOJ, DEOJ, ESV, OPC and that many EPC/PDC/EDT triples; two property sections for SetGet ESVs).", "quantifier": "all byte strings", "why_tests_cant": "Both directions quantify over every byte string; fuzzing can only find a counterexample, never establish it.", "anchors": ["src/uecho/message.c: uecho_message_parse"]}
{"id": "C05", "title": "uecho_message_size is exactly what uecho_message_getbytes writes", "statement": "For every message the API can produce, uecho_message_getbytes writes only inside the buffer it allocated and initialises every one of the uecho_message_size bytes of it.", "quantifier": "all messages reachable by any sequence of API calls", "why_tests_cant": "Needs a relation between two separately written loops for all property counts and data sizes.", "anchors": ["src/uecho/message.c: uecho_message_size, uecho_message_opcsize, uecho_message_setopcbytes, uecho_message_getbytes"]}
{"id": "C06", "title": "TID set/get round trip", "statement": "uecho_message_gettid after uecho_message_settid(v) returns v for every v in 0..65535, on hosts of either byte order; larger values are reduced into that range.", "quantifier": "all unsigned TIDs, both host byte orders", "why_tests_cant": "65536 values times two architectures, plus the overflow reduction; tests run on one host.", "anchors": ["src/uecho/message.c: uecho_message_settid, uecho_message_gettid"]}
{"id": "C07", "title": "TID wire bytes do not depend on the host", "statement": "The two TID bytes put on the wire for a given TID value are the same on every host (most significant byte first).", "quantifier": "all TIDs, both host byte orders", "why_tests_cant": "A test on one host cannot observe the other byte order.", "anchors": ["src/uecho/message.c: uecho_message_settid"]}
{"id": "C08", "title": "Object codes round trip", "statement": "Setting a 24-bit object code as source or destination of a message, or as the code of an object, and reading it back gives the same value; group, class and instance bytes agree with it.", "quantifier": "all object codes 0..0xFFFFFF", "why_tests_cant": "16 million values in three places.", "anchors": ["src/uecho/message.c: uecho_message_setsourceobjectcode, uecho_message_getsourceobjectcode", "src/uecho/misc.c: uecho_integer2byte, uecho_byte2integer", "src/uecho/object.c: uecho_object_setcode, uecho_object_getcode"]}
{"id": "C09", "title": "Copying a message preserves it", "statement": "uecho_message_copy / uecho_message_set give a message that uecho_message_equals the source.", "quantifier": "all messages reachable through the API, including SetGet messages", "why_tests_cant": "Must hold for every combination of ESV and sections.", "anchors": ["src/uecho/message.c: uecho_message_set, uecho_message_copy, uecho_message_equals"]}
{"id": "C10", "title": "uecho_message_equals means same frame", "statement": "uecho_message_equals is an equivalence relation, and for messages whose property values fit in 255 bytes it holds iff the two messages have the same header, TID, SEOJ, DEOJ, ESV and property sequences.", "quantifier": "all pairs and triples of messages", "why_tests_cant": "Injectivity of the encoding is a statement about all pairs.", "anchors": ["src/uecho/message.c: uecho_message_equals"]}
{"id": "C11", "title": "Adding properties keeps order and count", "statement": "After k calls of uecho_message_addproperty the count is k and uecho_message_getproperty(n) is the n-th added property for n<k and NULL otherwise.", "quantifier": "all sequences of properties of every length", "why_tests_cant": "The count is one byte; the boundary at 256 is beyond ordinary tests.", "anchors": ["src/uecho/message.c: uecho_property_add, uecho_property_get, uecho_message_addproperty, uecho_message_getproperty"]}
{"id": "C12", "title": "uecho_message_setproperty is an upsert", "statement": "After uecho_message_setproperty(code,data), looking up code gives data; lookups of all other codes, and the other property sections, are unchanged; the count grows by one iff the code was absent.", "quantifier": "all messages, codes and data", "why_tests_cant": "Frame conditions quantify over all other codes and all prior states.", "anchors": ["src/uecho/message.c: uecho_property_set, uecho_property_getbycode"]}
{"id": "C13", "title": "Property data is what was set", "statement": "uecho_property_setdata/adddata/setbytedata/cleardata and the getters behave like assignment, append and clear of a byte string, for any order of calls.", "quantifier": "all operation sequences and all data", "why_tests_cant": "Histories are unbounded.", "anchors": ["src/uecho/property.c: uecho_property_setdata, uecho_property_adddata, uecho_property_cleardata, uecho_property_getbytedata, uecho_property_copy, uecho_property_equals"]}
{"id": "C14", "title": "Integer data round trip and its safe range", "statement": "uecho_property_getintegerdata after uecho_property_setintegerdata(v,size) returns v modulo 256^size with no undefined behaviour whenever the size is at most 3 bytes (4 bytes for non-negative values); the exact set of stored byte strings for which reading an integer is undefined behaviour is characterised.", "quantifier": "all ints, all sizes, all stored byte strings", "why_tests_cant": "2^32 values and unbounded sizes; signed-shift overflow does not show in ordinary runs.", "anchors": ["src/uecho/misc.c: uecho_integer2byte, uecho_byte2integer", "src/uecho/util/bytes.c", "src/uecho/property.c: uecho_property_setintegerdata, uecho_property_getintegerdata"]}
{"id": "C15", "title": "Every ESV has one role", "statement": "Each ESV defined by the library is classified as exactly one of request or response, nothing else is classified, and the response/error ESV of a request is a response, so a response is never itself answered.", "quantifier": "all 256 ESV bytes", "why_tests_cant": "Finite but cross-product of nine predicates and two maps; the tests check a few values of each.", "anchors": ["src/uecho/esv.c", "src/uecho/message.c: uecho_message_requestesv2responseesv, uecho_message_requestesv2errorresponseesv"]}
{"id": "C16", "title": "Property maps with at most 15 codes round trip", "statement": "Writing a property map of at most 15 codes and reading it with uecho_property_getpropertymapcount/codes yields the same codes in the same order.", "quantifier": "all code lists of length 0..15", "why_tests_cant": "256^15 lists.", "anchors": ["src/uecho/object.c: uecho_object_setpropertymap", "src/uecho/property.c: uecho_property_getpropertymapcount, uecho_property_getpropertymapcodes"]}
{"id": "C17", "title": "Property maps with 16 or more codes round trip", "statement": "Writing a property map of 16 or more distinct codes in 0x80..0xFF and reading it back yields the same set of codes.", "quantifier": "all sets of at least 16 codes in 0x80..0xFF", "why_tests_cant": "2^128 sets.", "anchors": ["src/uecho/object.c: uecho_object_setpropertymap, uecho_propertymap_codetoformat2", "src/uecho/property.c: uecho_property_getpropertymapcodes, uecho_propertymap_format2bittocode"]}
{"id": "C18", "title": "Reading a property map is memory safe", "statement": "uecho_property_getpropertymapcodes never reads outside the property data nor writes outside the caller's array, for arbitrary (received) map data and any array size.", "quantifier": "all property contents, all caller array sizes", "why_tests_cant": "Property data comes from the network.", "anchors": ["src/uecho/property.c: uecho_property_getpropertymapcodes"]}
{"id": "C19", "title": "A successfully read property map is fully defined", "statement": "When uecho_property_getpropertymapcodes returns true every entry of the caller's array has been written, with the codes the map data describes.", "quantifier": "all property contents and array sizes", "why_tests_cant": "Needs all bitmap/count combinations.", "anchors": ["src/uecho/property.c: uecho_property_getpropertymapcodes"]}
{"id": "C20", "title": "Property maps reflect attributes", "statement": "After uecho_object_setcode or uecho_object_setproperty the Get/Set/Announcement map properties (0x9F/0x9E/0x9D) list exactly the codes of the readable/writable/announceable properties of the object.", "quantifier": "all objects reached by any history of API calls", "why_tests_cant": "Depends on history: caches are carried from one update to the next.", "anchors": ["src/uecho/std/object_super_class.c: uecho_object_updatepropertymaps, uecho_object_clearpropertymapcaches", "src/uecho/object.c: uecho_object_setpropertymap"]}
{"id": "C21", "title": "An object has at most one property per code", "statement": "In any object reached through the API no two properties have the same code.", "quantifier": "all histories of object operations", "why_tests_cant": "Invariant over unbounded histories.", "anchors": ["src/uecho/property_list.c: uecho_propertylist_add, uecho_propertylist_getbycode", "src/uecho/object.c: uecho_object_addproperty, uecho_object_setproperty"]}
{"id": "C22", "title": "Setting one property touches no other", "statement": "uecho_object_setpropertydata(code,data) makes uecho_object_getpropertydata(code) return data and leaves code, attributes and data of every other property unchanged; the same for integer and byte setters.", "quantifier": "all objects, codes, data", "why_tests_cant": "Frame condition for all other codes in all states.", "anchors": ["src/uecho/property_list.c: uecho_propertylist_setdata, uecho_propertylist_getdata", "src/uecho/object.c: uecho_object_setpropertydata"]}
{"id": "C23", "title": "Reading a property does not change the object", "statement": "uecho_object_getpropertydata/getpropertydatasize/getpropertyintegerdata/getpropertybytedata do not change which properties the object has.", "quantifier": "all objects and codes", "why_tests_cant": "A read with a hidden write is only visible by comparing whole states for all inputs.", "anchors": ["src/uecho/property_list.c: uecho_propertylist_getdata, uecho_propertylist_getdatasize, uecho_propertylist_getbycode"]}
{"id": "C24", "title": "Assigning a class adds its standard properties and keeps existing ones", "statement": "uecho_object_setcode adds every property of the super class and of the class found in the standard database that the object lacks, with the database's attributes, and changes no property the object already had other than the three map properties. The object gets the name of its class, or of the super class if the class has none.", "quantifier": "all databases/classes, all objects", "why_tests_cant": "For every class in the table and every prior object state.", "anchors": ["src/uecho/object.c: uecho_object_addstandardproperties, uecho_object_addmissingobjectproperties, uecho_object_setcode"]}
{"id": "C25", "title": "Attribute changes are visible in the property maps", "statement": "After uecho_object_setpropertyattribute the property maps agree with the new attribute.", "quantifier": "all objects, codes, attributes", "why_tests_cant": "Property over every state and attribute change.", "anchors": ["src/uecho/object.c: uecho_object_setpropertyattribute", "src/uecho/std/object_super_class.c: uecho_object_updatepropertymaps"]}
{"id": "C26", "title": "A node never holds two objects with the same code", "statement": "For any sequence of uecho_node_addobject/setobject calls object codes are pairwise distinct, adding a duplicate returns false and changes nothing.", "quantifier": "all histories of object additions", "why_tests_cant": "Unbounded histories.", "anchors": ["src/uecho/node.c: uecho_node_addobject, uecho_node_setobject"]}
{"id": "C27", "title": "A node's class list is exactly the classes of its objects", "statement": "After any sequence of additions, uecho_node_hasclassbycode(c) holds iff some object of the node has class c, and no class appears twice.", "quantifier": "all histories", "why_tests_cant": "Unbounded histories.", "anchors": ["src/uecho/node.c: uecho_node_addobject", "src/uecho/class_list.c: uecho_classlist_set"]}
{"id": "C28", "title": "The node profile describes the node", "statement": "After every addition, properties 0xD3, 0xD5, 0xD6, 0xD4, 0xD7 of the node profile give the number of instances, the instance list, the number of classes and the class list of the node's objects in order.", "quantifier": "all histories with at most 255 instances and classes", "why_tests_cant": "Consistency over unbounded histories.", "anchors": ["src/uecho/std/node_profile_class.c: uecho_nodeprofile_updateinstanceproperties"]}
{"id": "C29", "title": "Instance lists always fit in a frame", "statement": "The instance list of a node can be sent in a frame and parsed back to the same list.", "quantifier": "all nodes with up to 255 instances", "why_tests_cant": "Breaks only from 85 instances on.", "anchors": ["src/uecho/std/node_profile_class.c: uecho_nodeprofile_setinstancelist", "src/uecho/message.c: uecho_message_setopcbytes"]}
{"id": "C30", "title": "A response answers its request", "statement": "Apart from status-change announcements caused by a write (C42), at most one frame is sent because of a received message, and it carries the request's TID, source and destination objects swapped, and goes to the requester (or to the multicast group for a 0x73 notification); property codes are those of the request in the same order.", "quantifier": "all nodes, requests and handlers", "why_tests_cant": "All requests x all node states.", "anchors": ["src/uecho/node_listener.c: uecho_node_servermessagelistener"]}
{"id": "C31", "title": "Requests for all-existing, accepted properties succeed", "statement": "If every requested property exists and every registered handler accepts, the response ESV is the success ESV (0x71/0x72/0x73/0x7A/0x7E, none for 0x60).", "quantifier": "all requests with any number of properties", "why_tests_cant": "The failure shows only with two or more properties.", "anchors": ["src/uecho/node_listener.c: uecho_node_handlerequestmessage, uecho_node_servermessagelistener"]}
{"id": "C32", "title": "Requests with a missing or refused property get the error response", "statement": "If some requested property is missing or refused, the response ESV is the matching error ESV: 0x50 for 0x60, 0x51 for 0x61, 0x52, 0x53, 0x5E.", "quantifier": "all requests and node states", "why_tests_cant": "All request/handler combinations.", "anchors": ["src/uecho/node_listener.c: uecho_node_servermessagelistener"]}
{"id": "C33", "title": "A read response carries the current values", "statement": "In the response to 0x62/0x63/0x74 each existing, accepted property carries exactly the data stored in the object at that time and each missing or refused one carries no data.", "quantifier": "all nodes and requests", "why_tests_cant": "All stored values and all request lists.", "anchors": ["src/uecho/node_listener.c: uecho_node_handlerequestmessage"]}
{"id": "C34", "title": "A write changes exactly the accepted properties", "statement": "Handling 0x60/0x61 stores the request data in each existing, accepted property (last occurrence wins), and leaves all other properties, all attributes, all other objects unchanged; any other ESV except SetGet changes nothing.", "quantifier": "all nodes and requests", "why_tests_cant": "Frame conditions over all states.", "anchors": ["src/uecho/node_listener.c: uecho_node_handlerequestmessage"]}
{"id": "C35", "title": "Access attributes are honoured", "statement": "A write request to a property that is not writable, or a read of a property that is not readable, is refused and has no effect.", "quantifier": "all attributes, requests, nodes", "why_tests_cant": "All attribute/ESV combinations in all states.", "anchors": ["src/uecho/node_listener.c: uecho_node_handlerequestmessage"]}
{"id": "C36", "title": "Messages for unknown objects are ignored", "statement": "A message whose destination object the node does not have causes no frame to be sent and no state change.", "quantifier": "all messages and nodes", "why_tests_cant": "Universally quantified negative statement.", "anchors": ["src/uecho/node_listener.c: uecho_node_servermessagelistener"]}
{"id": "C37", "title": "Responses are never answered", "statement": "A message that is not a request causes no frame to be sent and no change of properties; hence two nodes can never exchange an endless sequence of answers to one message.", "quantifier": "all messages, all nodes", "why_tests_cant": "Absence of an infinite exchange is a liveness statement over all schedules.", "anchors": ["src/uecho/node_listener.c: uecho_node_servermessagelistener", "src/uecho/esv.c: uecho_esv_isrequest"]}
{"id": "C38", "title": "SetGet writes before reading", "statement": "Handling 0x6E first applies the set section and then reads the get section, so a property in both sections is reported with its new value.", "quantifier": "all nodes and SetGet requests", "why_tests_cant": "All combinations of overlapping sections.", "anchors": ["src/uecho/node_listener.c: uecho_node_servermessagelistener"]}
{"id": "C39", "title": "Property request handlers are consulted", "statement": "For each requested existing property the handlers registered for exactly that ESV and code are called, a single refusing handler refuses the property, no registered handler means accepted, and re-registering replaces the earlier handler.", "quantifier": "all handler registration histories and requests", "why_tests_cant": "Histories of registrations are unbounded.", "anchors": ["src/uecho/node_listener.c: uecho_object_notifyrequestproperty", "src/uecho/frame/object_property_observer_manager.c: uecho_object_property_observer_manager_setobserver"]}
{"id": "C40", "title": "SetGet handlers registered for 0x6E are called", "statement": "A handler registered for 0x6E by uecho_object_setpropertyrequesthandler is consulted when a 0x6E request names its property.", "quantifier": "all nodes and SetGet requests", "why_tests_cant": "All requests.", "anchors": ["src/uecho/node_listener.c: uecho_node_servermessagelistener", "src/uecho/object.c: uecho_object_setpropertywriterequesthandler"]}
{"id": "C41", "title": "Malformed datagrams have no effect", "statement": "A datagram the parser rejects calls no listener, changes no node state and sends nothing.", "quantifier": "all byte strings rejected by the parser, all nodes", "why_tests_cant": "All malformed inputs.", "anchors": ["src/uecho/frame/udp_server.c: uecho_udp_server_action", "src/uecho/frame/mcast_server.c: uecho_mcast_server_action", "src/uecho/message.c: uecho_message_parsepacket"]}
{"id": "C42", "title": "Status changes are announced once", "statement": "Setting non-empty data on an announceable property of an object that belongs to a node sends exactly one multicast 0x73 frame with that property and the new data; setting any other property sends nothing.", "quantifier": "all objects, properties, data", "why_tests_cant": "Count of effects for all states.", "anchors": ["src/uecho/property.c: uecho_property_setdata, uecho_property_announce", "src/uecho/node.c: uecho_node_announceproperty"]}
{"id": "C43", "title": "Announcements name the announcing object", "statement": "The source object code of an announcement is the code of the object whose property changed.", "quantifier": "all objects and properties", "why_tests_cant": "All objects.", "anchors": ["src/uecho/node.c: uecho_node_announceproperty, uecho_node_announcemessage"]}
{"id": "C44", "title": "Generated TIDs do not repeat within 65535 messages", "statement": "The TIDs of the messages a node sends lie in 1..65535 and any 65535 consecutive ones are pairwise distinct.", "quantifier": "all starting states and all lengths", "why_tests_cant": "The period is 65535.", "anchors": ["src/uecho/node.c: uecho_node_getnexttid"]}
{"id": "C45", "title": "Concurrent senders get distinct TIDs", "statement": "Two threads that send messages through one node at the same time use different TIDs.", "quantifier": "all interleavings of the load/store steps", "why_tests_cant": "Data races depend on the schedule.", "anchors": ["src/uecho/node.c: uecho_node_getnexttid, uecho_node_sendmessage"]}
{"id": "C46", "title": "A posted request returns a response to that request", "statement": "When uecho_controller_postmessage stores a response message, that message has the TID of the request and a different ESV.", "quantifier": "all received messages and histories", "why_tests_cant": "All message interleavings.", "anchors": ["src/uecho/controller.c: uecho_controller_postmessage, uecho_controller_ispostresponsemessage", "src/uecho/controller_listener.c: uecho_controller_handlepostresponse", "src/uecho/message.c: uecho_message_isresponsemessage"]}
{"id": "C47", "title": "A posted request is answered only by the addressed node", "statement": "uecho_controller_postmessage returns true only if a response ESV came from the node the request was sent to.", "quantifier": "all received messages", "why_tests_cant": "All senders and ESVs.", "anchors": ["src/uecho/controller.c: uecho_controller_ispostresponsemessage", "src/uecho/message.c: uecho_message_isresponsemessage"]}
{"id": "C48", "title": "A response that arrives in time is not lost", "statement": "If the response arrives between sending the request and the end of the waiting time, uecho_controller_postmessage returns true with it.", "quantifier": "all interleavings of the posting thread and the receiving thread", "why_tests_cant": "The lost wake-up happens in a window of a few instructions.", "anchors": ["src/uecho/controller.c: uecho_controller_postmessage", "src/uecho/util/cond.c: uecho_cond_timedwait, uecho_cond_signal"]}
{"id": "C49", "title": "After a post returns the controller keeps no reference to the caller's messages", "statement": "When uecho_controller_postmessage has returned, a later incoming message never writes to the request or response message passed to it.", "quantifier": "all outcomes including send failure", "why_tests_cant": "Failure path plus later history.", "anchors": ["src/uecho/controller.c: uecho_controller_postmessage"]}
{"id": "C50", "title": "At most one post is in flight", "statement": "Concurrent uecho_controller_postmessage calls are serialised: the request being waited for is always the one of the thread inside the call.", "quantifier": "all interleavings of any number of threads", "why_tests_cant": "All schedules, any number of threads.", "anchors": ["src/uecho/controller.c: uecho_controller_postmessage"]}
{"id": "C51", "title": "Discovery builds a duplicate-free node table", "statement": "For any sequence of received messages no two nodes of the controller have the same address; nodes and objects are only added, never removed; receiving the same instance list twice changes nothing the second time.", "quantifier": "all sequences of received messages", "why_tests_cant": "Unbounded histories.", "anchors": ["src/uecho/controller_listener.c: uecho_controller_handlesearchmessage"]}
{"id": "C52", "title": "Discovery records exactly the listed instances", "statement": "After an instance list (0xD6) from an address, the controller's node for this address has exactly the objects it had plus the complete 3-byte codes in the list; incomplete trailing bytes are ignored and nothing outside the property data is read.", "quantifier": "all property data of any length, all controllers", "why_tests_cant": "Attacker-controlled data.", "anchors": ["src/uecho/controller_listener.c: uecho_controller_handlesearchmessage"]}
{"id": "C53", "title": "The controller caches the last reported value", "statement": "After a notification or read response from a known node, the cached data of each reported property equals the reported data (last occurrence wins) and all other cached properties are unchanged.", "quantifier": "all messages, all controller states", "why_tests_cant": "Frame condition over all properties and histories.", "anchors": ["src/uecho/controller_listener.c: uecho_controller_updateopcpropertydata, uecho_controller_updatenodebyresponsemessage"]}
{"id": "C54", "title": "Node status callbacks match what happened", "statement": "The node listener is called with Added exactly when a new node was created, with Updated exactly when the node's cached state changed, with Announced/Responded exactly for notifications/responses.", "quantifier": "all messages and controller states", "why_tests_cant": "All combinations.", "anchors": ["src/uecho/controller_listener.c: uecho_controller_handlesearchmessage, uecho_controller_handlenodemessage"]}
{"id": "C55", "title": "Disabling an option disables it", "statement": "After uecho_controller_disableoption(p) the option p is not enabled and other options are unchanged.", "quantifier": "all option words and parameters", "why_tests_cant": "All states.", "anchors": ["src/uecho/controller.c: uecho_controller_disableoption, uecho_controller_isoptionenabled"]}
{"id": "C56", "title": "The linked list implements a sequence", "statement": "Any sequence of add, insert, remove, clear, size, get and iteration on uecho lists behaves like the same operations on a sequence, with no dangling links.", "quantifier": "all histories, all lengths", "why_tests_cant": "Pointer structure invariants over unbounded histories.", "anchors": ["src/uecho/util/list.c"]}
{"id": "C57", "title": "String buffers are always terminated and large enough", "statement": "For every history of uecho_string set/append/clear operations the string value is the expected character sequence, a terminator follows it inside the allocated memory, and no write leaves it.", "quantifier": "all histories and contents", "why_tests_cant": "Unbounded histories.", "anchors": ["src/uecho/util/strings.c: uecho_string_setnvalue, uecho_string_naddvalue, uecho_string_clear"]}
{"id": "C58", "title": "Logging a datagram does not overflow its buffer", "statement": "The trace buffer used for every sent and received datagram is never overrun.", "quantifier": "all datagram lengths and addresses", "why_tests_cant": "Overflow appears from about 110 payload bytes on and may not crash a test.", "anchors": ["src/uecho/util/logs.c: uecho_net_socket_log"]}
{"id": "C59", "title": "Socket writes deliver a prefix-complete stream", "statement": "uecho_socket_write terminates for every behaviour of send(2), sends the bytes in order without loss or duplication, and reports the full length only when everything was sent.", "quantifier": "all patterns of partial sends and failures", "why_tests_cant": "All OS behaviours.", "anchors": ["src/uecho/net/socket.c: uecho_socket_write"]}
{"id": "C60", "title": "Message observers are called once each in order", "statement": "Each received message is delivered to every registered observer exactly once in registration order.", "quantifier": "all observer lists", "why_tests_cant": "Any number of observers.", "anchors": ["src/uecho/frame/message_observer_manager.c: uecho_message_observer_manager_perform"]}
{"id": "C61", "title": "The standard object table is well formed", "statement": "Every class in the standard database has a lookup result of its own (no class is shadowed), and every class property code lies in 0x80..0xFF.", "quantifier": "all table entries", "why_tests_cant": "Whole-table statement.", "anchors": ["src/uecho/std/objects_mra.c", "src/uecho/std/database.c"]}
{"id": "C62", "title": "Announcing reports delivery truthfully", "statement": "uecho_node_announce and uecho_object_announcemessage return true only if the frame was handed to the network.", "quantifier": "all server states", "why_tests_cant": "Includes stopped servers.", "anchors": ["src/uecho/frame/server.c: uecho_server_postannounce", "src/uecho/frame/mcast_server_list.c"]}
{"id": "C63", "title": "After stop no handler runs", "statement": "When uecho_server_stop has returned no message handler of this server is running or will run.", "quantifier": "all interleavings", "why_tests_cant": "Schedules.", "anchors": ["src/uecho/util/thread.c: uecho_thread_stop"]}
{"id": "C64", "title": "A node delivers itself the standard start sequence", "statement": "uecho_node_start, when the server starts, multicasts exactly one notification carrying the current instance list.", "quantifier": "all nodes", "why_tests_cant": "All node states.", "anchors": ["src/uecho/node.c: uecho_node_start, uecho_node_announce"]}
{"id": "C65", "title": "Object operations are memory safe", "statement": "No history of object API calls (setcode, setproperty, clearproperties, setpropertydata, ...) makes the library read through a NULL pointer or read memory it has not written.", "quantifier": "all histories of object operations, all codes and attributes", "why_tests_cant": "Arbitrary histories; reading uninitialised memory rarely crashes a test.", "anchors": ["src/uecho/object.c: uecho_object_updatepropertymaps, uecho_object_setproperty, uecho_object_clearproperties"]}
{"id": "C66", "title": "No datagram crashes a node", "statement": "Receiving any datagram, of any content and length, by a node in any state reached through the API has defined behaviour: no out-of-bounds access and no call through a NULL function pointer.", "quantifier": "all datagrams, all node states, all registered handlers", "why_tests_cant": "Attacker-controlled input against arbitrary device state.", "anchors": ["src/uecho/node_listener.c: uecho_node_servermessagelistener, uecho_object_notifyrequestproperty", "src/uecho/object.c: uecho_object_setpropertyrequesthandler"]}
{"id": "C67", "title": "An error response to a write returns the refused data", "statement": "In the error response to a write request each refused property carries the data of the request and each accepted property carries no data.", "quantifier": "all write requests (0x60, 0x61, set section of 0x6E), all handlers", "why_tests_cant": "All mixes of accepted and refused properties.", "anchors": ["src/uecho/node_listener.c"]}
{"id": "C68", "title": "A starting node is discovered", "statement": "The notification (0xD5) a starting node multicasts makes a controller that receives it know the node and its instances.", "quantifier": "all controller states, all instance lists", "why_tests_cant": "All histories and lists.", "anchors": ["src/uecho/controller_listener.c: uecho_controller_handlesearchmessage", "src/uecho/message_search.c: uecho_message_issearchresponse", "src/uecho/node.c: uecho_node_announce"]}
{"id": "C69", "title": "Search discovers the nodes that answer it", "statement": "After uecho_controller_search, a node that receives the request answers it, and the controller that receives the answer knows the node with exactly its profile and its instances.", "quantifier": "all nodes, all controllers, all instance sets", "why_tests_cant": "Composition of two programs over all their states.", "anchors": ["src/uecho/controller.c: uecho_controller_search", "src/uecho/node_listener.c: uecho_node_servermessagelistener", "src/uecho/controller_listener.c: uecho_controller_handlesearchmessage"]}
{"id": "C70", "title": "A failed read does not change the cached value", "statement": "When a node answers a read request with 'response not possible' (0x52), the values the controller has cached for it stay as they are.", "quantifier": "all controller states, all error responses", "why_tests_cant": "All histories.", "anchors": ["src/uecho/controller_listener.c: uecho_controller_updateopcpropertydata"]}
{"id": "C71", "title": "No datagram crashes a controller", "statement": "Receiving any datagram by a controller in any state reached through the API has defined behaviour.", "quantifier": "all datagrams, all controller states", "why_tests_cant": "Attacker-controlled input of any length.", "anchors": ["src/uecho/controller_listener.c: uecho_controller_servermessagelistener", "src/uecho/controller.c: uecho_controller_ispostresponsemessage"]}
{"id": "C72", "title": "A search for an object is addressed to the object", "statement": "uecho_controller_searchobject(code) multicasts a search whose destination is the object with this code.", "quantifier": "all object codes", "why_tests_cant": "All codes.", "anchors": ["src/uecho/controller.c: uecho_controller_searchobjectwithesv"]}
{"id": "C73", "title": "A post waits for the configured time", "statement": "uecho_controller_postmessage waits for a response for the time set with uecho_controller_setpostwaitemilitime: not longer, and not less.", "quantifier": "all configured times and all times of the call", "why_tests_cant": "The loss depends on the fraction of the second at which the call is made.", "anchors": ["src/uecho/util/cond.c: uecho_cond_timedwait", "src/uecho/controller.c: uecho_controller_setpostwaitemilitime, uecho_controller_postmessage"]}
{"id": "C74", "title": "The poster gets the response that was received", "statement": "The response message filled by uecho_controller_postmessage has the header, the properties and the sender's address of the frame that was received.", "quantifier": "all response frames", "why_tests_cant": "All contents.", "anchors": ["src/uecho/controller_listener.c: uecho_controller_handlepostresponse", "src/uecho/message.c: uecho_message_set"]}
{"id": "C75", "title": "Posts do not deadlock", "statement": "As long as a call of uecho_controller_postmessage has not returned, some posting thread can make progress (at the latest when its wait times out).", "quantifier": "all interleavings of any number of threads", "why_tests_cant": "All schedules, any number of threads.", "anchors": ["src/uecho/controller.c: uecho_controller_postmessage", "src/uecho/util/mutex.c", "src/uecho/util/cond.c"]}
{"id": "C76", "title": "The local node of a controller behaves like a node", "statement": "For every datagram, valid or not, the local node of a controller changes and answers exactly as a node on its own would; the message listener of the controller is called once for each valid frame.", "quantifier": "all datagrams, all controller states", "why_tests_cant": "Attacker-controlled input, all states.", "anchors": ["src/uecho/controller_listener.c: uecho_controller_servermessagelistener", "src/uecho/node_listener.c: uecho_node_servermessagelistener"]}
{"id": "C77", "title": "Reading a line stays inside its buffer", "statement": "uecho_socket_readline stores a line with a terminator inside the caller's buffer, cuts a longer line to what fits and continues with the next line; it writes nothing else.", "quantifier": "all buffers, all streams", "why_tests_cant": "Lines and buffers of any length.", "anchors": ["src/uecho/net/socket.c: uecho_socket_readline"]}
{"id": "C78", "title": "Starting a server is all or nothing", "statement": "Starting a server succeeds exactly if every interface yields a socket and a thread; then one receiver per interface runs with all observers. Otherwise no receiver, socket or thread is left, whatever ran before.", "quantifier": "all behaviours of the operating system, all server states", "why_tests_cant": "All combinations of failures on any number of interfaces.", "anchors": ["src/uecho/frame/server.c: uecho_server_start, uecho_server_stop", "src/uecho/frame/udp_server_list.c", "src/uecho/frame/mcast_server_list.c"]}
{"id": "C79", "title": "Sending to an address reports delivery truthfully", "statement": "Sending a message to an address returns true exactly if the operating system took the whole datagram for that address, and then it took it exactly once.", "quantifier": "all server states, all behaviours of sendto(2)", "why_tests_cant": "All failures and any number of interfaces.", "anchors": ["src/uecho/frame/server.c: uecho_server_postresponse", "src/uecho/frame/udp_server_list.c"]}
{"id": "C80", "title": "Standard properties have the access of the standard", "statement": "An object that gets the code of a standard class has each property of the class, readable, writable and announced exactly if the rule in the standard table is not 'notApplicable', and mandatory exactly if it is 'required'.", "quantifier": "all classes and all properties of the standard table", "why_tests_cant": "Whole-table statement composed with the object code.", "anchors": ["src/uecho/std/objects_mra.c: uecho_standard_object_property_new", "src/uecho/object.c: uecho_object_setcode"]}
{"id": "C81", "title": "The rules of a class prevail over those of the super class", "statement": "For a property that both the super class and the class of an object define, the object has the access rules of its class.", "quantifier": "all classes and properties", "why_tests_cant": "Whole-table statement.", "anchors": ["src/uecho/object.c: uecho_object_addstandardproperties, uecho_object_addmissingobjectproperties", "src/uecho/std/objects_mra.c"]}
{"id": "C82", "title": "The property maps of a standard object are complete", "statement": "For an object that gets the code of a standard class, the Get, Set and announcement maps list exactly the codes of the properties that can be read, written and announced.", "quantifier": "all classes of the standard table, all heap contents", "why_tests_cant": "Whole-table statement; the maps of standard objects are long and use the second format.", "anchors": ["src/uecho/object.c: uecho_object_updatepropertymaps", "src/uecho/std/objects_mra.c"]}
{"id": "C83", "title": "Every manufacturer can be looked up", "statement": "Looking up a manufacturer code finds exactly the table entry with this code; codes are distinct, fit in three bytes, and names are not empty.", "quantifier": "all codes", "why_tests_cant": "Whole-table statement.", "anchors": ["src/uecho/std/manufacturers.c", "src/uecho/std/database.c: uecho_database_getmanufacture"]}
{"id": "C84", "title": "Reading a remote property end to end", "statement": "A controller that posts a read request for one property of an object of a node gets true and a response with the data the property had when the node handled the request, under the request's TID and with the node's address, provided both datagrams are delivered while the post waits and nobody refuses the read.", "quantifier": "all waiting posts in all interleavings, all nodes, objects, properties and data", "why_tests_cant": "Composition of two programs over all states and schedules.", "anchors": ["src/uecho/controller.c: uecho_controller_postmessage", "src/uecho/node_listener.c: uecho_node_handlerequestmessage", "src/uecho/controller_listener.c: uecho_controller_handlepostresponse"]}
{"id": "C85", "title": "Writing a remote property end to end", "statement": "A controller that posts a write request (0x61) for one property of an object of a node gets a positive response, and afterwards the property has the written data whatever other datagrams the node receives, until another write to the same property.", "quantifier": "all waiting posts, all nodes, objects, properties and data, all later datagrams", "why_tests_cant": "All histories of later datagrams, composition of two programs.", "anchors": ["src/uecho/controller.c: uecho_controller_postmessage", "src/uecho/node_listener.c: uecho_node_handlerequestmessage", "src/uecho/property.c: uecho_property_setdata"]}
{"id": "C86", "title": "A device keeps the state the application sets", "statement": "After any sequence of calls of the state accessors on a new device (operating status, installation location, standard version, fault status, manufacturer code), mixed with writes to other properties, each getter returns the argument of the last call of its setter, or the documented initial value, and changes nothing. The same holds for the manufacturer code of a profile.", "quantifier": "all call sequences and arguments", "why_tests_cant": "Arbitrary histories of setters and other writes.", "anchors": ["src/uecho/std/device_super_class.c", "src/uecho/std/device.c: uecho_device_new", "src/uecho/std/profile_super_class.c: uecho_profile_getmanufacturercode"]}
{"id": "C87", "title": "Device getters are safe whatever was written", "statement": "The state getters of a device have defined behaviour whatever data the properties hold, in particular after writes from the network; data of an unexpected length mean off, no fault, location 0 and version 0.", "quantifier": "all contents of the properties, all write requests", "why_tests_cant": "The data are chosen by other nodes.", "anchors": ["src/uecho/std/device_super_class.c", "src/uecho/property.c: uecho_property_getintegerdata", "src/uecho/node_listener.c: uecho_node_handlerequestmessage"]}
{"id": "C88", "title": "The receiver passes datagrams on unchanged", "statement": "A datagram that arrives at a socket of a started node or controller is passed to its listeners with exactly its bytes and the address of its sender.", "quantifier": "all datagrams, all addresses, all nodes and controllers", "why_tests_cant": "Depends on lengths and addresses chosen by other hosts.", "anchors": ["src/uecho/net/socket.c: uecho_socket_recv", "src/uecho/frame/udp_server.c: uecho_udp_server_action", "src/uecho/util/logs.c: uecho_net_socket_log"]}
{"id": "C89", "title": "Sending any frame is safe", "statement": "Sending a frame (a request, a response or an announcement) has defined behaviour whatever its length.", "quantifier": "all frames and addresses, all nodes", "why_tests_cant": "The overrun needs frames longer than the usual test frames and may go unnoticed.", "anchors": ["src/uecho/net/socket.c: uecho_socket_sendto", "src/uecho/util/logs.c: uecho_net_socket_log", "src/uecho/node.c: uecho_node_start"]}
{"id": "C90", "title": "Frames of any legal length are received", "statement": "A well-formed frame that arrives in one datagram is received whatever its length.", "quantifier": "all well-formed frames", "why_tests_cant": "Frames have up to 130000 bytes.", "anchors": ["src/uecho/net/socket.c: uecho_socket_recv", "src/uecho/net/socket.h: UECHO_NET_SOCKET_DGRAM_RECV_BUFSIZE"]}
{"id": "C91", "title": "The receiver keeps running", "statement": "A started receiver handles every datagram in the order of arrival, also after a transient error of the socket.", "quantifier": "all sequences of datagrams and errors", "why_tests_cant": "All sequences of answers of the operating system.", "anchors": ["src/uecho/frame/udp_server.c: uecho_udp_server_action", "src/uecho/frame/mcast_server.c: uecho_mcast_server_action"]}
{"id": "C92", "title": "Using a property from several threads", "statement": "Reading and writing the data of a property from several threads has defined behaviour, and every read returns the data of the last write before it.", "quantifier": "all interleavings of any number of reading and writing threads, all data", "why_tests_cant": "All schedules; the receiver threads of a node write properties while the application reads them.", "anchors": ["src/uecho/property.c: uecho_property_setdata, uecho_property_cleardata, uecho_property_getdata", "src/uecho/node_listener.c: uecho_node_handlerequestmessage"]}
{"id": "C93", "title": "Iterating over nodes while nodes are added", "statement": "A thread that iterates over the nodes of a controller (uecho_controller_getnodes, uecho_node_next) while nodes are discovered gets exactly the nodes in the list when the iteration ends, each once and in order, and no added node is lost.", "quantifier": "all interleavings of any number of iterating and adding threads", "why_tests_cant": "All schedules.", "anchors": ["src/uecho/util/list.c: uecho_list_add, uecho_list_insert, uecho_list_next", "src/uecho/node_list.c"]}
{"id": "C94", "title": "A node that answers is listed once", "statement": "However the receiver threads of a controller interleave, each address is listed as at most one node.", "quantifier": "all interleavings of any number of receiver threads, all answers", "why_tests_cant": "All schedules.", "anchors": ["src/uecho/controller_listener.c: uecho_controller_handlesearchmessage", "src/uecho/controller.c: uecho_controller_getnodebyaddress, uecho_controller_addnode"]}
{"id": "C95", "title": "Every thread gets the complete standard database", "statement": "uecho_standard_getdatabase returns in every thread the same database with all entries.", "quantifier": "all interleavings of any number of calls", "why_tests_cant": "All schedules; the creation is a window of microseconds.", "anchors": ["src/uecho/std/standard.c: uecho_standard_getdatabase"]}
{"id": "C96", "title": "Searching characters in a text", "statement": "uecho_strchr returns the position of the first, uecho_strrchr that of the last character of the text that is among the given ones, or -1 if there is none or an argument is NULL.", "quantifier": "all texts and character sets", "why_tests_cant": "Texts and sets of any length.", "anchors": ["src/uecho/util/strings_function.c: uecho_strchr, uecho_strrchr"]}
{"id": "C97", "title": "Trimming a text", "statement": "uecho_strtrim returns the text without the given characters at both ends, uecho_strtrimwhite without white space at both ends; the rest is unchanged.", "quantifier": "all texts and character sets", "why_tests_cant": "Texts of any length.", "anchors": ["src/uecho/util/strings_function.c: uecho_strtrim, uecho_strltrim, uecho_strrtrim, uecho_strtrimwhite"]}
{"id": "C98", "title": "Splitting a text into tokens", "statement": "A tokenizer over a text yields exactly the tokens between the separators, in order; asking for the rest yields the text from the next token on.", "quantifier": "all texts and separators, any number of tokens taken before", "why_tests_cant": "Texts of any length.", "anchors": ["src/uecho/util/strings_tokenizer.c"]}
{"id": "C99", "title": "Replacing in a text", "statement": "uecho_string_replace ends and replaces, from left to right, each occurrence of a pattern (the first in the list that matches) by its replacement.", "quantifier": "all texts, patterns and replacements", "why_tests_cant": "Texts of any length, any number of patterns.", "anchors": ["src/uecho/util/strings.c: uecho_string_replace"]}
{"id": "C100", "title": "Appending to a text buffer", "statement": "uecho_strncat appends at most the given number of characters and leaves a terminated text.", "quantifier": "all texts and numbers", "why_tests_cant": "Texts of any length.", "anchors": ["src/uecho/util/strings_function.c: uecho_strncat"]}
{"id": "C101", "title": "What a controller shows for a remote device was true once", "statement": "Whatever a controller shows as the value of a property of a device of a remote node was the value of this property of this device at some moment, and an announced change reaches what is shown for the device.", "quantifier": "all histories of a node (its application, the datagrams it receives from anybody) and a controller (its user, the datagrams of the node delivered late, never, several times, in any order, and datagrams of others)", "why_tests_cant": "An unbounded history of two programs and a network.", "anchors": ["src/uecho/node.c: uecho_node_announceproperty", "src/uecho/node_listener.c", "src/uecho/controller_listener.c", "src/uecho/node_listener.c: uecho_object_notifyrequestproperty"]}
{"id": "C102", "title": "What a controller lists for a node existed once", "statement": "Every device a controller lists for a remote node was an object of this node at some moment.", "quantifier": "all histories of a node and a controller as in C101", "why_tests_cant": "An unbounded history of two programs and a network.", "anchors": ["src/uecho/controller_listener.c: uecho_controller_handlesearchmessage", "src/uecho/std/node_profile_class.c", "src/uecho/node_listener.c"]}
{"id": "C103", "title": "A node gives back the descriptors it takes", "statement": "Starting, stopping, restarting, announcing and sending leave exactly the sockets of the running node open, stopping or deleting it leaves none, and descriptors of the application are never closed, even if calls to the operating system fail.", "quantifier": "all histories of a node and its application, all sets of failing calls", "why_tests_cant": "Which call fails, when, and after how many restarts.", "anchors": ["src/uecho/net/socket.c: uecho_socket_setid, uecho_socket_close, uecho_socket_bind", "src/uecho/frame/udp_server.c", "src/uecho/frame/server.c: uecho_server_start, uecho_server_stop"]}
{"id": "C104", "title": "A node frees the address lists it looks up", "statement": "Every address list obtained from the operating system is freed, even if later calls fail.", "quantifier": "all histories, all sets of failing calls", "why_tests_cant": "A leak in one error path only shows with this error.", "anchors": ["src/uecho/net/socket.c: uecho_socket_tosockaddrinfo, uecho_socket_bind"]}
{"id": "C105", "title": "Broken pipes do not end the application, and its handler comes back", "statement": "While a node has been started, SIGPIPE is ignored; after it was stopped the handling is what the application set.", "quantifier": "all histories of one node and all handlers", "why_tests_cant": "Depends on the count of sockets over the whole history.", "anchors": ["src/uecho/net/socket.c: uecho_socket_startup, uecho_socket_cleanup"]}
{"id": "C106", "title": "A node can run as long as one likes", "statement": "Sending, starting and stopping are defined however often they are done.", "quantifier": "all histories", "why_tests_cant": "2^31 messages are too many for a test.", "anchors": ["src/uecho/net/socket.c: uecho_socket_startup, uecho_socket_tosockaddrinfo"]}
{"id": "C107", "title": "Working with properties and messages neither leaks nor corrupts memory", "statement": "Whatever an application does with properties and messages, in any order, no freed memory is used or freed again; the memory allocated is exactly that of the properties and messages it still holds, and once it has deleted them all, the heap is as before.", "quantifier": "all sequences of calls, all data, all parsed byte strings, all heaps", "why_tests_cant": "A leak or a double free may need a particular sequence, for example parsing a damaged frame into a message that was used before.", "anchors": ["src/uecho/message.c: uecho_message_parse, uecho_message_set, uecho_message_clear, uecho_message_delete, uecho_message_setopc, uecho_property_add", "src/uecho/property.c: uecho_property_setdata, uecho_property_copy, uecho_property_delete"]}
{"id": "C108", "title": "Objects, nodes and controllers never use freed memory", "statement": "Whatever an application does with objects, nodes and controllers, in any order, whatever datagrams reach them and whatever the operating system answers, no freed memory is used or freed again, and the memory allocated is exactly that of what the application still holds.", "quantifier": "all sequences of calls and datagrams, all data, all answers of the operating system, all handlers that write properties, all heaps", "why_tests_cant": "A use after free may need a particular sequence, for example a datagram that arrives after a post that could not be sent.", "anchors": ["src/uecho/object.c", "src/uecho/node.c: uecho_node_delete, uecho_node_start", "src/uecho/node_listener.c: uecho_node_servermessagelistener", "src/uecho/controller.c: uecho_controller_postmessage", "src/uecho/controller_listener.c", "src/uecho/frame/server.c"]}
{"id": "C109", "title": "Deleting what it holds gives an application back all memory", "statement": "After any history of calls and datagrams the application can delete its properties, messages, objects, nodes and controllers, and then the heap is as it was before the first call.", "quantifier": "all sequences of calls and datagrams, all answers of the operating system, all heaps", "why_tests_cant": "A leak may need a particular failure, for example a socket that cannot be bound while a node starts.", "anchors": ["src/uecho/node.c: uecho_node_delete, uecho_node_stop", "src/uecho/controller.c: uecho_controller_delete", "src/uecho/object.c: uecho_object_delete", "src/uecho/frame/udp_server.c", "src/uecho/frame/mcast_server.c"]}
{"id": "C110", "title": "Datagrams cannot make a node use more and more memory", "statement": "Whatever datagrams reach a node, and however many, the number of memory blocks grows by no more than two for each property of the node.", "quantifier": "all sequences of datagrams from all senders, all nodes, all answers of the operating system, all handlers that write properties", "why_tests_cant": "A test sends a few datagrams; a slow leak in the path of one kind of request shows after days.", "anchors": ["src/uecho/node_listener.c: uecho_node_servermessagelistener", "src/uecho/frame/server.c", "src/uecho/message.c: uecho_message_parsepacket"]}
{"id": "C111", "title": "Datagrams cannot make a controller use more and more memory", "statement": "However many datagrams reach a controller, the memory that it uses is bounded.", "quantifier": "all sequences of datagrams from all senders", "why_tests_cant": "Needs many senders; a test has a few.", "anchors": ["src/uecho/controller_listener.c: uecho_controller_handlesearchmessage", "src/uecho/controller.c: uecho_controller_addnode"]}
{"id": "C112", "title": "The list of interfaces is complete and exact", "statement": "The interfaces that a node opens sockets on are exactly the IPv4 entries of the operating system that have a netmask, are in use and are not the loopback interface, in their order. Different addresses have different texts of at most 15 characters.", "quantifier": "all answers of the operating system, all addresses", "why_tests_cant": "A test machine has a few interfaces; the combinations of families, flags and missing netmasks are not at hand.", "anchors": ["src/uecho/net/interface_function.c: uecho_net_gethostinterfaces"]}
{"id": "C113", "title": "A datagram is given the address of this host on the sender's network", "statement": "The local address of a received datagram is the first address of this host on the network of the sender; if there is none, an address that is not link-local; if there is none, a link-local one; without a network the loopback address. All strings made on the way are released.", "quantifier": "all answers of the operating system, all senders, all heaps", "why_tests_cant": "Depends on the interfaces of the host and on the order in which they are listed.", "anchors": ["src/uecho/net/interface_function.c: uecho_net_selectaddr", "src/uecho/net/socket.c: uecho_socket_recv"]}
{"id": "C114", "title": "IPv6 addresses and their scopes are recognised", "statement": "A text is taken for an IPv6 address iff it has a colon, and its scope is the number after the percent sign.", "quantifier": "all texts", "why_tests_cant": "Short forms such as ::1 and long interface numbers are rarely in a test.", "anchors": ["src/uecho/net/net_function.c: uecho_net_isipv6address, uecho_net_getipv6scopeid"]}
{"id": "C115", "title": "Waiting for a property or an object lasts as long as asked for", "statement": "uecho_object_getpropertywait and uecho_controller_getobjectbycodewithwait return what becomes known within the waiting time, soon after it is known, and nothing only when the time is over.", "quantifier": "all waiting times, all times at which the property or object becomes known, all delays of the system", "why_tests_cant": "Tests wait for one or two durations and for things that are there at once or never.", "anchors": ["src/uecho/object.c: uecho_object_getpropertywait", "src/uecho/controller.c: uecho_controller_getobjectbycodewithwait", "src/uecho/util/timer.c: uecho_wait", "src/uecho/_const.h: uEchoWaitRetryCount"]}
{"id": "C116", "title": "Random numbers and random waiting times keep their bounds", "statement": "uecho_random gives a number from 0 to 1, and uecho_waitrandom waits for at most the given time.", "quantifier": "all answers of the random number generator, all times up to 2^53, all roundings that keep the order", "why_tests_cant": "A rounding error at the edge of the range is not hit by a sample.", "anchors": ["src/uecho/util/timer.c: uecho_random, uecho_waitrandom"]}
{"id": "C117", "title": "The log level decides what is printed", "statement": "A message of the library is printed iff its severity is within the level set with uecho_log_setlevel, with time, severity and text, cut to the buffer.", "quantifier": "all levels, severities and texts", "why_tests_cant": "Every length of text near the size of the buffer would be needed, and every severity with every level.", "anchors": ["src/uecho/util/log.c: uecho_log_output", "src/uecho/util/logs.c: uecho_net_socket_log, uecho_net_socket_error, uecho_message_error"]}
{"id": "C118", "title": "Comparing and finding texts", "statement": "uecho_strcmp orders texts as a dictionary does, uecho_strncmp compares their first characters, uecho_streq and uecho_strcaseeq tell whether they are equal (but for upper and lower case), and uecho_strstr finds the first place where a text stands in another.", "quantifier": "all texts and NULL", "why_tests_cant": "Texts of every length and content would be needed; the order is a statement about pairs.", "anchors": ["src/uecho/util/strings_function.c: uecho_strcmp, uecho_strncmp, uecho_streq, uecho_strcaseeq, uecho_strstr"]}
{"id": "C119", "title": "Numbers are written in decimal notation", "statement": "uecho_int2str, uecho_long2str, uecho_sizet2str and uecho_ssizet2str write the decimal notation of the number, within the buffer whose size they are given; uecho_string_setintvalue and uecho_string_setlongvalue set a text to it.", "quantifier": "all numbers of the type, all buffers", "why_tests_cant": "2^64 numbers, and the extreme ones matter.", "anchors": ["src/uecho/util/strings_function.c: uecho_int2str, uecho_long2str, uecho_sizet2str, uecho_ssizet2str", "src/uecho/util/strings.c: uecho_string_setintvalue, uecho_string_setlongvalue"]}
{"id": "C120", "title": "Lists of properties, classes, manufacturers and objects are dictionaries", "statement": "Adding an element replaces the one with the same code and frees it; looking up a code gives the element with it or NULL; no list has two elements with one code; what is allocated is what the lists hold.", "quantifier": "all histories of calls, all codes, any number of lists", "why_tests_cant": "Depends on which elements were added before, in which order, and what they were replaced by.", "anchors": ["src/uecho/property_enum_list.c: uecho_property_enumlist_add, uecho_property_enumlist_findbycode", "src/uecho/property_list.c: uecho_propertylist_set, uecho_propertylist_findbycode", "src/uecho/class_list.c: uecho_classlist_set", "src/uecho/object_list.c: uecho_objectlist_set", "src/uecho/manufacture_list.c"]}
{"id": "C121", "title": "There is one standard database, complete, until the program ends", "statement": "All threads that ask uecho_standard_getdatabase get the same database, with all standard manufacturers and objects, and can use it; it is freed once when the program ends.", "quantifier": "all interleavings of calls from any number of threads, with or without memory, and the end of the program at any time", "why_tests_cant": "The first call happens once in a program, and a race for it or with the end of the program is a matter of microseconds.", "anchors": ["src/uecho/std/standard.c: uecho_standard_getdatabase, uecho_standard_freedatabase"]}
{"id": "C122", "title": "A thread object runs its action once, from start to stop", "statement": "uecho_thread_start tells whether the action runs; after uecho_thread_stop it ends; never do two threads run the action of one object; uecho_threadlist_start tells whether all threads run.", "quantifier": "all histories of start, stop and restart, all failures to make threads, all times at which the action looks whether it should go on", "why_tests_cant": "Depends on when the action looks at the flag and on failures of the operating system.", "anchors": ["src/uecho/util/thread.c: uecho_thread_start, uecho_thread_stop, uecho_thread_restart, uecho_thread_isrunning", "src/uecho/util/thread_list.c: uecho_threadlist_start, uecho_threadlist_stop"]}
{"id": "C123", "title": "Stream sockets give back their descriptors", "statement": "Whatever an application does with stream sockets, the open descriptors are those it had before and those its sockets hold; after deleting the sockets only the former. uecho_socket_skip leaves out the bytes it is told to.", "quantifier": "all histories of calls on any number of sockets, all failures of the operating system, all streams", "why_tests_cant": "A leak shows only when descriptors run out.", "anchors": ["src/uecho/net/socket.c: uecho_socket_accept, uecho_socket_connect, uecho_socket_bind, uecho_socket_close, uecho_socket_delete, uecho_socket_skip"]}
{"id": "C124", "title": "A message holds what was set last", "statement": "After any calls of the setters of a message, in any order, every getter gives what was set last, the predicates for addresses and codes agree with it, and the predicates for requests and responses follow from the service set last.", "quantifier": "all histories of calls with values that fit the fields", "why_tests_cant": "Depends on the order of the calls; a setter must not disturb any other field.", "anchors": ["src/uecho/message.c: uecho_message_settid, uecho_message_setsourceobjectcode, uecho_message_setesv, uecho_message_setsourceaddress, uecho_message_isrequest, uecho_message_isresponse"]}
{"id": "C125", "title": "Running out of memory is reported, not suffered", "statement": "Whatever calls an application makes on properties and messages, and whichever requests for memory the host refuses: a call that cannot get memory says so, what it says is true, nothing undefined happens, and nothing is leaked.", "quantifier": "all sequences of calls and all patterns of refused requests", "why_tests_cant": "Every request of every call can be the one refused, in combination; tests do not make malloc fail.", "anchors": ["src/uecho/property.c: uecho_property_new, uecho_property_setdata, uecho_property_adddata, uecho_property_setintegerdata, uecho_property_copy", "src/uecho/message.c: uecho_message_new, uecho_message_setopcep, uecho_property_add, uecho_message_parse, uecho_message_getbytes, uecho_message_copy"]}
{"id": "C126", "title": "A property holds what was set last, and its attributes say what is allowed", "statement": "After any calls of the setters of a property in any order, every getter gives the value set last (a name set to NULL does not count; data: the bytes set last and those added since), and the predicates on reading, writing and announcing follow from the attributes set last, a required access counting as that access.", "quantifier": "all histories of setter calls, all attribute words", "why_tests_cant": "All 2^32 attribute words and unbounded histories.", "anchors": ["src/uecho/property.c: uecho_property_setattribute, uecho_property_isreadable, uecho_property_iswritable, uecho_property_isreadonly, uecho_property_iswriteonly, uecho_property_isannounceable, uecho_property_settype, uecho_property_setname"]}
{"id": "C127", "title": "Equality and copies of properties", "statement": "Two properties are equal exactly when code, attributes and data are the same; equality is an equivalence; a copy equals its original and has its name and type.", "quantifier": "all properties", "why_tests_cant": "Equality ranges over all data of all lengths.", "anchors": ["src/uecho/property.c: uecho_property_equals, uecho_property_copy, uecho_property_isdataequal"]}
{"id": "C128", "title": "The handler registered last counts", "statement": "After any registrations of request handlers on an object, for one service, for all that write or for all that read, the handler the object gives for a service and a property is the one registered last for them.", "quantifier": "all histories of registrations, all services and properties", "why_tests_cant": "Histories are unbounded and replace one another.", "anchors": ["src/uecho/object.c: uecho_object_setpropertyrequesthandler, uecho_object_setpropertywriterequesthandler, uecho_object_setpropertyreadhandler, uecho_object_getpropertyrequestlistener", "src/uecho/frame/object_property_observer_manager.c: uecho_object_property_observer_manager_setobserver"]}
{"id": "C129", "title": "An object gives back the values of its properties", "statement": "Reading a property of an object gives the bytes, the size, the byte or the number that was set.", "quantifier": "all objects, codes and data", "why_tests_cant": "Data may have any length and content.", "anchors": ["src/uecho/object.c: uecho_object_getpropertydata, uecho_object_getpropertydatasize, uecho_object_getpropertybytedata, uecho_object_getpropertyintegerdata", "src/uecho/property_list.c: uecho_propertylist_getdatasize"]}
{"id": "C130", "title": "Searches and requests are recognised", "statement": "A received frame is a search exactly if it is a Get of the one property 0xD6, the search a controller sends is one, a message requires an answer exactly if its service does, and a message is from an object to itself exactly if it comes from an address of the node and names one object twice.", "quantifier": "all frames and messages", "why_tests_cant": "All frames of all lengths.", "anchors": ["src/uecho/message_search.c: uecho_message_issearchrequest, uecho_message_search_new", "src/uecho/message.c: uecho_message_isresponserequired", "src/uecho/node_listener.c: uecho_node_isselfobjectmessage"]}
{"id": "C131", "title": "Codes and counts of objects, classes and nodes", "statement": "The code of an object (class) is made of its group, class and instance codes, each of which is what was set, like the name and the listener of an object; devices are the groups up to 6, profiles the group 0x0E; the number of properties (objects) is the number of codes there is a property (an object) for.", "quantifier": "all objects, classes, nodes and histories", "why_tests_cant": "Histories are unbounded; a count can disagree after one of them.", "anchors": ["src/uecho/object.c: uecho_object_setgroupcode, uecho_object_getgroupcode, uecho_object_isdevice, uecho_object_getpropertycount", "src/uecho/class.c: uecho_class_setcode, uecho_class_isdevice", "src/uecho/node.c: uecho_node_getobjectcount"]}
{"id": "C132", "title": "Notifications that require a response are acknowledged", "statement": "A node acknowledges every notification that requires a response (INFC, 0x74) for one of its objects: it sends one INFC_Res (0x7A) to the sender, with the same transaction id, the objects exchanged, the codes of the notification and no data.", "quantifier": "all nodes, objects and notifications, with any number of properties, known to the receiver or not", "why_tests_cant": "Whether the acknowledgement comes depends on which properties the receiver has and how many the frame carries.", "anchors": ["src/uecho/node_listener.c: uecho_node_servermessagelistener, uecho_node_handlerequestmessage, uecho_object_notifyrequestproperty"]}
{"id": "C133", "title": "A request for a class is for all instances", "statement": "A request to instance code 0 of a class reaches every instance of that class of the node; a request to another instance code concerns that instance alone.", "quantifier": "all nodes, instances and requests", "why_tests_cant": "The node may have any number of instances, with any codes.", "anchors": ["src/uecho/node_listener.c: uecho_node_servermessagelistener", "src/uecho/node.c: uecho_node_getobjectbycode"]}
{"id": "C134", "title": "Records hold what was set last", "statement": "After any sequence of calls of its setters, a network interface, a datagram, a manufacturer, an element of an enumeration, and an observer of properties or of messages gives back through its getters what was passed last to each setter, or the initial value. Setting a text to NULL leaves the last text.", "quantifier": "all sequences of calls of setters with any arguments", "why_tests_cant": "The texts and the data live in blocks that are freed and allocated again by every call, so a getter may depend on the whole history of calls.", "anchors": ["src/uecho/net/interface.c: uecho_net_interface_setname, uecho_net_interface_getaddress, uecho_net_interface_getany", "src/uecho/net/datagram_packet.c: uecho_socket_datagram_packet_setdata, uecho_socket_datagram_packet_clear", "src/uecho/manufacture.c: uecho_manufacture_setname, uecho_manufacture_iscode", "src/uecho/property_enum.c: uecho_property_enum_setname", "src/uecho/frame/message_observer.c: uecho_message_observer_sethandler", "src/uecho/frame/object_property_observer.c: uecho_object_property_observer_setesv"]}
{"id": "C135", "title": "A copy of a datagram is equal to its source", "statement": "After a datagram was copied to another, the copy shows the data, the length, both addresses and both ports of the source, whatever it showed before.", "quantifier": "all pairs of datagrams made by any calls of setters, the same or different", "why_tests_cant": "The result depends on the histories of both datagrams.", "anchors": ["src/uecho/net/datagram_packet.c: uecho_socket_datagram_packet_copy", "src/uecho/util/strings.c: uecho_string_setvalue"]}
{"id": "C136", "title": "Receivers run from their start to their stop", "statement": "Starting opened receivers, one or a list, succeeds exactly if the system grants every thread; then each runs on its address, and the list is bound to exactly these addresses. A stopped receiver is not running and its socket is closed. Starting again restarts. A list says that it is running exactly while its receivers are.", "quantifier": "all states of receivers, all decisions of the system about threads", "why_tests_cant": "The outcome depends on earlier starts and stops and on every decision of the system.", "anchors": ["src/uecho/frame/udp_server.c: uecho_udp_server_start, uecho_udp_server_stop, uecho_udp_server_isrunning", "src/uecho/frame/mcast_server.c: uecho_mcast_server_start, uecho_mcast_server_stop", "src/uecho/frame/udp_server_list.c: uecho_udp_serverlist_start, uecho_udp_serverlist_stop, uecho_udp_serverlist_isrunning", "src/uecho/frame/mcast_server_list.c: uecho_mcast_serverlist_start"]}
{"id": "C137", "title": "What a new node says about itself", "statement": "The profile of a new node is its only object. It says that the node is on, gives the version of the protocol and that the node understands the specified message format, and has an identification number of 17 bytes that begins with FEh and the code of the maker. Setting the number takes the maker code and the number from the caller and changes nothing else.", "quantifier": "all databases with the class of node profiles, all random numbers, all arguments", "why_tests_cant": "The bytes depend on random numbers and on the database.", "anchors": ["src/uecho/std/node_profile_class.c: uecho_nodeprofile_new, uecho_nodeprofile_addmandatoryproperties, uecho_nodeprofile_setid, uecho_nodeprofile_setdefaultid, uecho_nodeprofile_setversion", "src/uecho/node.c: uecho_node_new"]}
{"id": "C138", "title": "A node keeps the address, listener and transaction id it is given", "statement": "After any calls on a node, its address, its listener and its last transaction id are the ones given last (NULL changes no address); the objects are as before. An address is the node's exactly if it is the given one or one the server is bound to. The next transaction id is from 1 to 65535.", "quantifier": "all sequences of calls, all nodes", "why_tests_cant": "The result depends on the whole history of calls.", "anchors": ["src/uecho/node.c: uecho_node_setaddress, uecho_node_isaddress, uecho_node_setmessagelistener, uecho_node_hasmessagelistener, uecho_node_setlasttid, uecho_node_getnexttid"]}
{"id": "C139", "title": "Setting the maker of a node", "statement": "Setting the code of the maker of a node writes it, three bytes and most significant first, to every object of the node and changes no other property. If the node has a profile, one announcement is sent for each object that announces its maker code, with consecutive transaction ids, and nothing else.", "quantifier": "all nodes and codes", "why_tests_cant": "A node has any number of objects with any properties.", "anchors": ["src/uecho/node.c: uecho_node_setmanufacturercode", "src/uecho/std/object_super_class.c: uecho_object_setmanufacturercode"]}
{"id": "C140", "title": "A controller holds what it was given last", "statement": "After any calls on a controller, among them starts and stops, its message listener, node listener, user data and waiting time are those given last, or the initial ones.", "quantifier": "all sequences of calls", "why_tests_cant": "The result depends on the whole history of calls.", "anchors": ["src/uecho/controller.c: uecho_controller_setmessagelistener, uecho_controller_getmessagelistener, uecho_controller_hasmessagelistener, uecho_controller_setnodelistener, uecho_controller_setuserdata, uecho_controller_getuserdata, uecho_controller_setpostwaitemilitime, uecho_controller_getpostwaitemilitime"]}
{"id": "C141", "title": "The switch of the unicast receivers", "statement": "After any calls on a controller, a start that succeeds makes a unicast receiver for each interface exactly if these receivers were not disabled last; enabling enables, and disabling disables at once.", "quantifier": "all sequences of calls, all answers of the system", "why_tests_cant": "The result depends on the history and on the answers of the system.", "anchors": ["src/uecho/controller.c: uecho_controller_enableoption, uecho_controller_disableoption, uecho_controller_disableudpserver, uecho_controller_start, uecho_controller_isrunning", "src/uecho/node.c: uecho_node_setoption, uecho_node_start, uecho_node_isrunning", "src/uecho/frame/server.c: uecho_server_start"]}
{"id": "C142", "title": "A message to an object that was found goes to its node and names it", "statement": "Sending a message to a node or an object a controller has found hands one datagram to the network, for the address of that node; it is the given message with the profile of the controller as source, the next transaction id and, for an object, its code as destination. Nodes are looked up by their one address.", "quantifier": "all histories of a controller, all nodes and objects found, all messages", "why_tests_cant": "The address and the code depend on the history of the controller.", "anchors": ["src/uecho/object.c: uecho_object_sendmessage", "src/uecho/controller.c: uecho_controller_sendmessage, uecho_controller_getnodecount", "src/uecho/node.c: uecho_node_sendmessage", "src/uecho/node_list.c: uecho_nodelist_getbyaddress"]}
{"id": "C143", "title": "What a controller was told last holds whatever it does", "statement": "Calls and datagrams one after the other: the message listener and the node listener set last are the ones that are called, whatever the controller did since; a request that is posted is sent with the next transaction id and answered by the frames with this id and another service only, whatever the controller does until the post ends; after it has ended no datagram touches a message of the application.", "quantifier": "all histories of a controller, all datagrams", "why_tests_cant": "The result depends on everything that happened in between.", "anchors": ["src/uecho/controller.c: uecho_controller_setmessagelistener, uecho_controller_setnodelistener, uecho_controller_postmessage", "src/uecho/controller_listener.c: uecho_controller_servermessagelistener, uecho_controller_handlepostresponse"]}
{"id": "C144", "title": "The transaction IDs of a controller do not repeat", "statement": "Whatever an application does with a controller (starting it, searching, announcing, posting, changing properties of its node), and whatever comes in meanwhile: among 65535 messages in a row no two frames of the application carry the same transaction ID, and none carries the ID 0.", "quantifier": "all histories of a controller, all datagrams", "why_tests_cant": "A repeated ID would make the controller take an old answer for a new one; which IDs are in use depends on the whole history.", "anchors": ["src/uecho/node.c: uecho_node_getnexttid, uecho_node_announcemessage, uecho_node_sendmessage", "src/uecho/controller.c: uecho_controller_start, uecho_controller_searchwithesv, uecho_controller_postmessage"]}
{"id": "C145", "title": "What is registered with a node stays registered", "statement": "The message listener set with a node is called for every frame the node takes, whatever the application did and whatever came in since, until it is set again; the message listener and the property request handlers of an object stay as they were set until they are set again or the node is cleared. A new node and a new object of a node have none.", "quantifier": "all histories of a node, all datagrams", "why_tests_cant": "A call or a datagram that quietly drops a listener shows only in the history that holds it.", "anchors": ["src/uecho/node.c: uecho_node_setmessagelistener, uecho_node_new, uecho_node_clear", "src/uecho/object.c: uecho_object_setmessagelistener, uecho_object_new", "src/uecho/node_listener.c: uecho_node_servermessagelistener"]}
{"id": "C146", "title": "An object, node or controller that runs out of memory", "statement": "If memory runs out while an object is made, NULL is returned and nothing is left. If it runs out during a call on an object there is no memory error; the call reports false and the object is as it was, and deleting the object gives back all of its memory. While there is memory every call succeeds. A node or a controller for which there is no memory is not made. The lists of the node profile are built or left as they are, and a receiver that runs out of memory loses nothing but the datagram it was about to handle.", "quantifier": "all calls on an object, all entries of the lists, all sequences of datagrams, all subsets of requests for memory refused", "why_tests_cant": "Tests do not make each request for memory fail in turn.", "anchors": ["src/uecho/object.c: uecho_object_new, uecho_object_delete, uecho_object_setproperty, uecho_object_setpropertyrequesthandler", "src/uecho/std/object_super_class.c: uecho_object_updatepropertymaps", "src/uecho/frame/object_property_observer_manager.c: uecho_object_property_observer_manager_new", "src/uecho/std/node_profile_class.c: uecho_nodeprofile_updateinstanceproperties", "src/uecho/frame/udp_server.c: uecho_udp_server_action", "src/uecho/node.c: uecho_node_new", "src/uecho/controller.c: uecho_controller_new"]}
{"id": "C147", "title": "Values that the library gave out can be given back to it", "statement": "A text or data that an application reads from a property, a message, an object or a node can be given to any setter, also to one of the same property or message: it is taken and there is no memory error. A message can be compared with itself and set to itself.", "quantifier": "all texts and data, all heaps", "why_tests_cant": "Reading a block that was just freed usually works in a test.", "anchors": ["src/uecho/property.c: uecho_property_setdata, uecho_property_adddata, uecho_property_setname", "src/uecho/message.c: uecho_message_setsourceaddress, uecho_message_set, uecho_message_equals", "src/uecho/util/strings.c: uecho_string_setnvalue", "src/uecho/util/strings_function.c: uecho_strloc"]}
{"id": "C148", "title": "The light of the example program is as bright as it was last told", "statement": "The lighting device of the example program always starts, and whatever datagrams arrive, in any order and between any restarts, its power is the last valid value that was written to it, on at first; reading it gives that value and changes nothing; other values are refused; a change is announced; the object says which properties it has and who made it.", "quantifier": "all sequences of datagrams and restarts, all contents of memory, all options, both byte orders", "why_tests_cant": "No test covers the example; which write came last depends on every earlier datagram.", "anchors": ["examples/device/uecholight/lighting_dev.c: uecho_light_new, uecho_lighting_propertyrequesthandler", "examples/device/uecholight/main.c: main"]}
{"id": "C149", "title": "The posting command sends the request that was typed", "statement": "uechopost sends exactly one request: to the object that was typed, with the service and the properties that were typed, whichever case the hexadecimal digits have; it waits for a response iff requests of the service are answered, and prints the properties of the response as they would be typed. What is not a request for an object of the node is refused. No arguments make it do something undefined.", "quantifier": "all arguments, all contents of memory, both byte orders", "why_tests_cant": "There is no test of the command; the arguments are free text.", "anchors": ["examples/controller/uechopost/uechopost.c: main, uechopost_print_objectresponse"]}
{"id": "C150", "title": "What is known about found objects", "statement": "Whatever a controller received, each object of each node it found has the standard properties of its class, with their names and attributes; other properties that devices report about it have no name and are not required; its name is that of its class.", "quantifier": "all controllers, all histories of calls and datagrams, all databases", "why_tests_cant": "The properties depend on all datagrams of all devices.", "anchors": ["src/uecho/controller_listener.c: uecho_controller_handlesearchmessage, uecho_controller_updateopcpropertydata", "src/uecho/object.c: uecho_object_setcode, uecho_object_addstandardproperties", "src/uecho/std/object_super_class.c: uecho_object_updatepropertymaps"]}
{"id": "C151", "title": "The application's signals", "statement": "A signal does what the application set it to, whatever the library does; handlers of the application do not run on threads of the library; no signal ends a receiver of a running node.", "quantifier": "all histories of starts, stops, steps of receivers, signals, masks and handlers, all choices of the thread that gets a signal", "why_tests_cant": "Depends on which thread gets the signal and when.", "anchors": ["src/uecho/util/thread.c: posix_thread_proc, uecho_sig_handler, uecho_thread_start", "src/uecho/frame/udp_server.c: uecho_udp_server_action", "src/uecho/frame/mcast_server.c: uecho_mcast_server_action"]}
{"id": "C152", "title": "What uechosearch asks", "statement": "uechosearch -v asks every node that was found for its manufacturer and, object by object, for each property that the standard requires to be readable, and prints for each a line with the name in the standard and the values answered; nothing that devices send makes it do something undefined.", "quantifier": "all reachable controllers with the standard database, all datagrams that arrive during each request, all byte orders", "why_tests_cant": "Depends on what devices announce and answer while the lists are walked.", "anchors": ["examples/controller/uechosearch/uechosearch.c: print_founddevices, get_nodemanufacturename, create_readpropertymessagebycode", "src/uecho/controller.c: uecho_controller_postmessage", "src/uecho/util/bytes.c: uecho_bytes_toint"]}
{"id": "C153", "title": "Stopping a thread on ESP32", "statement": "On ESP32 uecho_thread_stop succeeds and ends the action of the thread; uecho_thread_isrunning tells whether the action runs; and what the action was doing when it was stopped leaves the lists it was working on in order.", "quantifier": "all histories of starts, restarts, stops and actions that end; all lists, and all points at which a task is deleted while it adds an element", "why_tests_cant": "Depends on where in its code the other task is when it is deleted.", "anchors": ["lib/esp32/thread.c: uecho_thread_start, uecho_thread_stop, uecho_thread_restart, uecho_thread_isrunning, uecho_freertos_thread_proc", "src/uecho/util/list.c: uecho_list_add, uecho_list_insert"]}
{"id": "C154", "title": "Waiting for a condition on ESP32", "statement": "On ESP32 uecho_cond_wait returns true just if the condition was signalled while it waited, and false when the time has passed; it returns with the mutex held, and at most one task holds it.", "quantifier": "all numbers of tasks and all interleavings of their locks, waits, timeouts and signals", "why_tests_cant": "All interleavings of any number of tasks.", "anchors": ["lib/esp32/cond.c: uecho_cond_new, uecho_cond_wait, uecho_cond_signal", "lib/esp32/mutex.c: uecho_mutex_lock, uecho_mutex_unlock"]}
{"id": "C155", "title": "The benchmark of what was found", "statement": "uechobench -v -n count walks count times over all nodes and objects that were found, sends each time one Get request for every property that the standard requires to be readable, prints a line for each with the values answered, does nothing undefined whatever is answered, and ends.", "quantifier": "all reachable controllers, all counts, all datagrams that arrive while the command runs", "why_tests_cant": "Depends on what any device on the network sends in answer to any of the requests, and on what was found before.", "anchors": ["examples/controller/uechobench/uechobench.c: main, benchmark_founddevices"]}
{"id": "C156", "title": "The addresses of an ESP32", "statement": "On ESP32 the list of interfaces holds exactly those that are in use and have an address other than the loopback address, in their order, and the address that is named as the receiver of a datagram is the one on the network of its sender.", "quantifier": "all lists of interfaces and all senders", "why_tests_cant": "All addresses and numbers of interfaces.", "anchors": ["lib/esp32/interface_function.c: uecho_net_gethostinterfaces, uecho_net_selectaddr"]}
{"id": "C157", "title": "What uechodump shows", "statement": "The uechodump command prints, for every datagram that starts with a frame, one line in which a reader finds the sender, the transaction ID, both objects, the service and the codes of the properties, and nothing for other datagrams; it sends one search for every key s or S; and it ends at the key q or at the end of the input.", "quantifier": "all sequences of keys and datagrams", "why_tests_cant": "All bytes a sender may send and all orders of keys and datagrams.", "anchors": ["examples/controller/uechodump/uechodump.c: uecho_print_multicastmessages, main"]}
{"id": "C158", "title": "The memory behind the Objective-C objects", "statement": "An object of the Objective-C wrapper can be used as long as the program holds it; nothing is freed twice; what an object shows stays allocated until the object responsible for it is let go of, the controller is started again or the observer returns; and a program that lets go of all objects leaves no memory allocated.", "quantifier": "all programs of any length over the classes of the wrapper, with any number of objects, posts and arriving messages, in any order", "why_tests_cant": "All orders in which objects are made, used and let go of.", "anchors": ["wrapper/objc/uEcho/CGEchoMessage.m: init, initWithCObject, dealloc, properties", "wrapper/objc/uEcho/CGEchoProperty.m: init, initWithCObject, dealloc", "wrapper/objc/uEcho/CGEchoController.m: init, dealloc, nodes, start, postMessage, CGEchoControllerObserver"]}
{"id": "C159", "title": "The Objective-C calls do what their names say", "statement": "The lists of a message show the properties of the frame or those that the program added, in their order; sending or posting a message hands one datagram to the network, for the address of the given node, with the code of the given object as destination, and answers what the network answered; the response shows the properties of the frame that answered; the observer is told of each status of a node once, by the method for it.", "quantifier": "all messages, frames, nodes, objects and histories of a controller; all observers", "why_tests_cant": "All frames and all controllers that histories lead to.", "anchors": ["wrapper/objc/uEcho/CGEchoMessage.m: properties, setproperties, getproperties", "wrapper/objc/uEcho/CGEchoController.m: sendMessage, postMessage, announceMessage, search, CGEchoControllerObserver", "wrapper/objc/uEcho/CGEchoObject.m: code"]}
{"id": "C160", "title": "The light program ends and restarts when it is told to", "statement": "The light of the example program runs, listening on every interface, from its start until it is told to end: SIGTERM and SIGINT end it with success and leave nothing open, SIGHUP restarts it on the interfaces there are now, and no other signal that spares a process changes anything.", "quantifier": "all sequences of signals sent and taken; all answers of the operating system and the network at each start; all ways in which the parent process left the signals", "why_tests_cant": "Signals come at any time, and each restart may find other interfaces and other failures.", "anchors": ["examples/device/uecholight/main.c: main", "src/uecho/node.c: uecho_node_start, uecho_node_stop, uecho_node_isrunning"]}
{"id": "C161", "title": "A node can be reached at the addresses of its host", "statement": "A node starts on every host that has a network and grants it sockets and threads; it can then be reached, by requests and by notifications, at exactly the IPv4 addresses that the host has in use; it takes exactly what comes from these addresses for its own, and the address that is named as the receiver of a datagram is one of them.", "quantifier": "all lists of interfaces of a host, all answers of the operating system, all senders; POSIX and ESP32", "why_tests_cant": "All networks a host may have.", "anchors": ["src/uecho/frame/server.c: uecho_server_start, uecho_server_isboundaddress", "src/uecho/net/interface_function.c: uecho_net_gethostinterfaces, uecho_net_selectaddr", "src/uecho/node.c: uecho_node_isaddress", "lib/esp32/interface_function.c"]}
{"id": "C162", "title": "The command that posts a request and the light understand each other", "statement": "When a user types a request with uechopost, the line that it prints is what the device answered: who, which object, which service, and every property as the user would type it. Reading the power of the light of the example prints the byte that was written to it last, or 30; writing one byte prints that it was accepted, and a later command, of any controller, prints that byte; any other data is refused and printed as such. A controller that searches finds the light until somebody writes to its list of instances; one datagram that empties this list hides the light from controllers that do not know it, also after it is stopped and started again.", "quantifier": "all texts that spell a request, all histories of the light and of the controller, all answers, both byte orders", "why_tests_cant": "All conversations.", "anchors": ["examples/controller/uechopost/uechopost.c: main, uechopost_print_objectresponse", "examples/device/uecholight/lighting_dev.c", "src/uecho/controller.c: uecho_controller_postmessage", "src/uecho/controller_listener.c"]}
{"id": "C163", "title": "The light on an ESP32 runs once and stays in its network", "statement": "On an ESP32 the light starts when the station gets an address, once, and if the network is lost or cannot be joined the station tries again. The storage is erased only if it cannot be used as it is.", "quantifier": "all sequences of network events the system can produce and all results of the calls at the start", "why_tests_cant": "All histories of the network.", "anchors": ["examples/device/uecholight/esp32/app_main.c: app_main, wifi_event_handler, ip_event_handler"]}
{"id": "C164", "title": "Receiving on an ESP32", "statement": "On an ESP32 every datagram of an IPv4 host is handled in the order of arrival, as on other systems, under the address of the host that sent it, and two hosts are never taken for one.", "quantifier": "all datagrams, all hosts, all sets of interfaces, all nodes and controllers", "why_tests_cant": "All inputs from the network.", "anchors": ["lib/esp32/socket.c: uecho_socket_recv", "lib/esp32/interface_function.c: uecho_net_selectaddr", "src/uecho/frame/udp_server.c"]}
