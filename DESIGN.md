# Formal model of uecho (C) in Lean 4 — design

## 1. Approach

`/repo/src/uecho` is read as text and re-expressed as small total functions in
Lean 4 under `lean/Verif/Model/`. Each definition cites the file and lines it
models. Small specifications, written without the model's helpers, are in
`lean/Verif/Spec/`. The property theorems are in `lean/Verif/Props/`, apart from
the lemmas used to prove them (`lean/Verif/Lemmas/`). Beside each theorem an
`example` shows that its hypotheses are met by a concrete non-trivial case.

### Modelling conventions

* `Byte := BitVec 8` is C `byte` (`unsigned char`).
* Undefined behaviour is a distinct outcome: `Res α` is `ok a` or `ub`. Reads
  and writes of C arrays go through `rd` / `wr`, which return `ub` when the index
  is outside the allocated block. Shifts by ≥ 32, signed overflow, reads of
  uninitialised memory and calls through NULL function pointers are `ub`.
* Uninitialised memory is `Option Byte` with `none` = indeterminate.
* A function that mutates through a pointer returns the new value.
* Byte order of the host is a parameter where it matters (TID).
* Effects on the network are an explicit list of frames, in order.
* Threads are modelled as explicit interleavings of atomic steps.
* `size_t` subtraction wraps modulo 2^64 where the C code can underflow.

### Assumptions (trusted, not proved)

* `malloc`/`calloc`/`realloc` of a non-zero size succeed, except in `Model/Oom`, `Model/OomObj`, `Model/OomLists` and `Model/OomRecv` (C125, C146), where requests of properties and messages may
  be refused; `malloc(0)` is not NULL.
* Arguments that must be pointers to live objects are (NULL checks at function
  entry are modelled only where a NULL can arise inside the library).
* A caller does not pass a property's own data buffer to its setter, except in `Model/Alias` (C147).
* `memcmp`/`memcpy` with length 0 is a no-op (even on NULL).
* `bool` is C99 `_Bool` (the library includes `<stdbool.h>` when compiled as C99
  or later).
* User handlers do not modify the object they are called for.

## 2. Trusted base

* Lean 4.33.0 kernel; the axioms `propext`, `Classical.choice`, `Quot.sound`
  only (checked with `#print axioms`; see `MANIFEST.json` for theorem names).
* The reading of the C code into the model. The code is never executed here.
* No axioms are added; no `sorry`, `admit`, `native_decide`, `bv_decide`.

## 3. Plan per property

| id | what is modelled | how it is proved |
|----|------------------|------------------|
| C01 | `Model.Message.parse` with bounds-checked reads | no outcome is `ub`, by induction on the property count |
| C02 | `getbytes`, `parse` | induction on the property list |
| C03 | same | inversion of a successful parse |
| C04 | same + independent grammar `Spec.Frame` | both directions by induction |
| C05 | `size`, `getbytes` writing into an uninitialised buffer | induction; all cells become `some` |
| C06, C07 | `settid`, `gettid` with host byte order parameter | arithmetic; C07 negated with a witness |
| C08 | `integer2byte`, `byte2integer`, object code | arithmetic |
| C09 | `message_set` | plain messages proved; SetGet refuted by witness |
| C10 | `equals` | encoding injectivity from C02 |
| C11, C12 | property arrays with one-byte count | induction over additions; 256th addition shown `ub` |
| C13 | property as byte string | refinement over operation lists |
| C14 | shift semantics with `ub` | arithmetic and characterisation |
| C15 | ESV predicates | exhaustive `decide` over all 256 bytes (whole domain) |
| C16–C19 | map writer and reader | induction / bitmap invariants; C17, C19 refuted + partial |
| C20, C25 | maps with caches and uninitialised cells | invariant; refuted by witness + partial |
| C21–C24 | property list as list, object operations | invariant over operation histories |
| C26–C29 | node object/class lists, node profile | invariant over histories; C29 refuted + partial |
| C30–C40 | request dispatcher | case analysis + induction over properties |
| C41 | receive loop body | direct from parser model |
| C42–C44, C64 | announcements, TID generator | direct / induction with modular arithmetic |
| C45 | interleaving model of `lastTid` | witness schedule; partial for serial schedules |
| C46–C50 | post/receive interleaving model | invariants over all schedules, witnesses for the failures |
| C51–C54 | controller discovery and cache | invariants over message histories |
| C55 | option word | bit arithmetic |
| C56 | heap model of the circular list | refinement to `List` |
| C57 | buffer with allocated size | invariant over histories |
| C58 | offset arithmetic of the trace buffer | threshold theorem |
| C59 | send loop against an arbitrary OS oracle | induction over oracle answers |
| C60 | observer loop | induction |
| C61 | generated table | kernel-checked whole-table evaluation |
| C62 | server state | case analysis |
| C63 | thread model | witness schedule |
| C64 | `uecho_node_start` | direct |
| C65 | object operations with `ub` outcomes | exact definedness condition; refuted by witness |
| C66 | `uecho_node_servermessagelistener` composed with the parser | definedness for all datagrams; refuted for NULL handlers |
| C67 | response construction | induction over the request; refuted for 0x60 |
| C68–C72, C76 | controller, composed with node and parser | case analysis of the listener |
| C73 | deadline arithmetic of `uecho_cond_timedwait` | arithmetic |
| C74, C75 | post/receive model | as C46 |
| C77 | `uecho_socket_readline` on a buffer of given size | induction over the stream |
| C80–C83 | standard tables composed with `uecho_object_setcode` | whole-table evaluation by the kernel, and general lemmas about lists of classes |
| C84, C85 | the post protocol (C48) composed with the request handler (C31–C35) of another node; the network delivers both datagrams while the post waits | composition of the two theorems; induction over later datagrams |
| C86 | setters and getters of `std/device_super_class.c`, `std/profile_super_class.c` | refinement to a record of five fields, induction over the calls |
| C87 | the same getters on arbitrary data, composed with a remote write | case analysis; refuted for the manufacturer code |
| C88–C91 | receive loop and send with the trace and the receive buffer, composed with the listeners | trace threshold (C58); induction over the arriving datagrams; soundness and completeness of the grammar for cut frames |
| C92 | threads on one property | invariant over all interleavings; race witnesses |
| C93 | threads on one list | invariant over all interleavings at field granularity |
| C94, C95 | discovery by several threads, lazy creation of the database | invariants over all interleavings; race witnesses |
| C96–C100 | string functions, tokenizer, replacement | induction over the text; C97–C100 refuted in corner cases + partial |
| C101, C102 | a node and a controller on a network that loses, delays and doubles datagrams | invariant of all histories: caches, sent frames, instance lists; refuted for announcements and for device properties 0xD6 |
| C103–C106 | descriptors, address lists, SIGPIPE, the count of sockets | every call to the operating system may fail (an oracle); invariant: open descriptors = sockets of the node + the application's; refuted for descriptor 0, failing socket(), the handler after stop, 2^31 sends |
| C107 | memory of properties and messages | a separation-logic triple for each function (footprint = the blocks reachable from the handle, frame built in), then induction on the sequence of calls; the value part is the model of `Model/Message` |
| C108, C109 | memory of objects, nodes and controllers | a separation-logic triple for each function of `Model/HeapNode`; the footprint of a handle is in `Spec/HeapNode`; the frames are found by the tactic `frame` of `Lemmas/HeapFrame`; then induction on the history |
| C110 | memory of a node under datagrams | the triple for handling keeps the codes of the properties of every object, so the footprint differs only in whether a property has data |
| C111 | memory of a controller under datagrams | the list of node addresses has no duplicates and is contained in the senders; for the violation every sender of a search answer is in it |
| C112–C114 | addresses of this host | induction on the entries; heap triples for the strings; decimal numerals are injective by the lemmas of Lean's library |
| C115 | polling | induction on the rounds, with the time as a parameter and arbitrary delays |
| C116 | random numbers | rational arithmetic with an abstract rounding |
| C117 | log output | buffer of 2048 bytes as in C58 |
| C118, C119 | texts and numbers | induction on the texts; decimal digits by strong induction |
| C120 | keyed lists in memory | simulation of dictionaries by linked lists, on top of the one for sequences (C56) |
| C121 | life of the standard database | invariants over all interleavings of the lines of `uecho_standard_getdatabase` |
| C122 | thread objects | induction on the history |
| C123 | stream sockets | the accounting of C103 for any number of sockets |
| C124 | fields of a message | induction on the history of calls |
| C125 | refused requests for memory | triples over blocks for every pattern of refusals; runs that show what is unchecked |
| C126, C127 | setters, getters and predicates of properties | induction over histories; bits of the attribute word |
| C128 | registry of request handlers | induction over registrations |
| C129 – C131 | getters of objects, classes, nodes and messages | case analysis; uniqueness of codes from C21 and C26 |
| C132, C133 | INFC and requests to instance code 0, through the request handler | from the outcome of a request (C31 – C36) |
| C134, C135 | interfaces, datagrams, manufacturers, enumerations and observers under any calls (Records) | an invariant over the calls, from the blocks of strings (C57) |
| C136 | start and stop of receivers and lists of them (Server) | by cases; lists by induction |
| C137 | the profile of a new node (NodeProfile) | data after each setter |
| C138 | fields of a node under any calls (NodeFields) | induction over the calls |
| C139 | the maker code of a whole node (Maker) | induction over the objects, with the announcements of C29 |
| C140, C141 | settings of a controller and its server (ControllerFields) | induction over the calls; the option words of controller and server agree in bit 0; C78 for starts |
| C142 | sending from a controller (ObjectSend) | the invariant of the controller (C51) gives the address and the parent; `sendMessage_eq` of C05 gives the datagram |
| C143 | histories of a controller (`CtrlLater` in Spec/ControllerApi) | the settings are kept by every step; then C76, C54 and C46 for the datagram |
| C144 | histories of a controller (`CtrlSends` in Spec/ControllerApi) | the IDs are a sublist of the IDs that follow the last one; a request that comes in takes no more IDs than it causes datagrams |
| C145 | histories of a node (`NodeLater` in Spec/Registered) | code, handlers and listener of each object are the same list after a datagram, a start, a write; adding an object appends |
| C146 | objects with refused requests (`objCall`, `ObjMeans` in Spec/OomObj) | triples with a frame of owned blocks for every function of an object; the state between calls (`OOk`) owns exactly its blocks; refuted by runs for map, handler list, data, replacement, node, controller |
| C147 | setters with a pointer argument (`Src`), a message as both arguments | triples with the block of the argument in the frame; refuted by computing the heap after the free |
| C148 | `Light.main`, then any list of datagrams and restarts (`lightRun`) | invariant `LightInv` (handlers, power, attribute), induction over `PowerAfter` |
| C149 | `PostCmd.run`, with `sscanf` of `%x` and `%02x` for any text | induction over the typed properties (`loop_typed`); bounds on scanned numbers for other texts |
| C150 | `CtrlReach` for any database without double codes | relation `Knows` (standard properties first, then extra ones), kept by every operation on a found object |
| C151 | `Model/Signals.lean`: what signals do, masks, receivers in `recvfrom` | invariants over all histories |
| C152 | `Model/SearchCmd.lean`: the three loops, over positions in the controller's lists, with datagrams handled in each post | induction on the rounds, using C51, C71, C143 and C150 |
| C153 | `Model/Esp32.lean`: thread object with a task handle; list addition cut after any assignment | invariant of histories; on top of C56, induction over the later additions |
| C154 | `Model/Esp32Cond.lean`: any number of tasks, one mutex, one binary semaphore, one call to FreeRTOS a step | invariant over all interleavings, with counts of signals and wakes in the log |
| C155 | `Model/BenchCmd.lean`: the loop of main over the walk of `Model/SearchCmd.lean`; arrivals at every request | on top of C152; ends: lexicographic induction over the requests before the last arrival and what is left of the lists |
| C156 | `Model/Esp32If.lean`: the list that ESP-IDF answers | induction over the list; byte order by bits |
| C157 | `Model/DumpCmd.lean`: the list of keys and datagrams | induction over the list; digits by strong induction |
| C158 | `Model/ObjC.lean`: regions of memory and objects that point into them | invariant: every region is owned at most once, and the live ones exactly once; induction over the program |
| C159 | `Model/ObjCCalls.lean`: the values behind the Objective-C calls | induction over the positions of a list; composition with the sending of a controller (C142), the delivery of responses (C46, C74) and the statuses (C54) |
| C160 | `Model/LightMain.lean`: the loop of the light program and the signals that reach it | invariant over histories of signals; composition with C78 and C62 |
| C161 | `Model/HostServer.lean`: the receivers of a node for the interfaces that the operating system lists | composition of C112, C113, C156 with C78; different addresses have different texts |
| C162 | `Model/PostCmd.lean` (`printResponse`) with `Model/Light.lean` and `Model/Controller.lean` | composition of C149, C143, C71, C69, C52 and C148 through the bytes that are sent |
| C163 | `Model/LightEsp.lean`: `app_main` and its event handlers | induction over histories of a station (`Spec/LightEsp.lean`) |
| C164 | `Model/Esp32Recv.lean` with `Model/Receive.lean` | equality with the receiver of C88, induction over the datagrams |
| C78, C79 | server lists against an arbitrary operating system | induction over interfaces |

## 4. What is modelled

| model file | C files (below `src/uecho`) |
|------------|---------|
| `Model/Basic` | C memory, `Res`, `size_t`, host byte order |
| `Model/Misc` | `misc.c`, `util/bytes.c` |
| `Model/Esv` | `esv.c` |
| `Model/Property` | `property.c` (data, attributes, integer accessors) |
| `Model/Message` | `message.c`, `message_search.c` (parse, bytes, sections, copy, compare) |
| `Model/PropertyList` | `property_list.c` |
| `Model/PropertyMap` | map writer and reader in `std/object_super_class.c` |
| `Model/Object` | `object.c`, `std/object_super_class.c`, `frame/object_property_observer_manager.c` |
| `Model/Device` | `std/device*.c`, `std/profile*.c`, `std/node_profile_class.c` |
| `Model/Node` | `node.c`, `class.c`, `class_list.c`, `object_list.c`: objects, announcements, TID generator |
| `Model/NodeListener` | `node_listener.c`, the receive loop body of `frame/udp_server.c` |
| `Model/Controller` | `controller.c`, `controller_listener.c`, `node_list.c` |
| `Model/Post` | `uecho_controller_postmessage`, `uecho_node_getnexttid` and the response part of the controller's listener as steps of threads; `util/cond.c`, `util/mutex.c` |
| `Model/CList` | `util/list.c`, with a heap of cells; a destructor given to `uecho_list_clear` is taken to end with `free` of the cell |
| `Model/CString` | `util/strings.c` (set, append, clear, take over a pointer) with memory blocks |
| `Model/Log` | `uecho_net_socket_log` in `util/logs.c`: `snprintf` into a buffer of 256 bytes |
| `Model/Socket` | `uecho_socket_write`, `uecho_socket_readline` in `net/socket.c` |
| `Model/Server` | `frame/server.c`, `frame/udp_server_list.c`, `frame/mcast_server_list.c`, `frame/message_observer_manager.c` |
| `Model/Database`, `Model/StdObjects`, `Model/StdManufacturers` | `std/database.c`, `std/objects_mra.c`, `std/manufacturers.c`, `manufacture*.c`; the two tables are generated from the C files; lazy creation in `std/standard.c` is in `Model/DiscoverRace` |
| `Model/Receive` | `uecho_socket_recv`, `uecho_socket_sendto` (trace), `net/datagram_packet.c`, receive loop of `frame/udp_server.c` |
| `Model/Race`, `Spec/Race`, `Props/Race` | property.c:105-169, 368-380, 449-454 under several threads, accesses to the fields and the heap block as single steps, sequentially consistent |
| `Model/ListRace`, `Spec/ListRace`, `Props/ListRace` | util/list.c under several threads |
| `Model/DiscoverRace`, `Spec/DiscoverRace`, `Props/DiscoverRace` | controller_listener.c:44-57 and std/standard.c:28-39 under several threads |
| `Model/Strings`, `Spec/Strings`, `Props/Strings` | util/strings_function.c:181-334, util/strings_tokenizer.c, util/strings.c:260-312 |
| `Spec/Network` | a node and a controller on one network; a composition of the models of both, no further code |
| `Model/Fd` | net/socket.c, udp_server.c, mcast_server.c, udp_server_list.c, mcast_server_list.c, frame/server.c: what is opened, closed, allocated and freed; the operating system is an oracle that answers each call |
| `Model/Heap` | property.c, message.c, message_search.c, util/strings.c: which blocks are allocated, accessed and freed |
| `Model/HeapNode` | object.c, object_*.c, node.c, node_listener.c, controller.c, controller_listener.c, core/server.c, core/udp_server.c, core/mcast_server.c, socket.c: which blocks are allocated, accessed and freed; what the operating system answers is an oracle |
| `Model/Interface` | net/interface_function.c: uecho_net_gethostinterfaces, uecho_net_selectaddr (with `getifaddrs`; without the MAC address and the index); net/net_function.c |
| `Model/Wait`, `Model/Random` | the waiting loops of object.c and controller.c; util/timer.c without the seed |
| `Model/LogOutput` | util/log.c; the severities in util/logs.c |
| `Model/Compare` | util/strings_function.c: comparing, finding, writing numbers (without `HAVE_SNPRINTF`); util/string.c: setting numbers |
| `Model/Keyed` | property_enum(_list).c, property_list.c, class_list.c, object_list.c, manufacture_list.c: adding and finding by code, at the level of pointers |
| `Model/StdDb` | std/standard.c |
| `Model/ThreadCtl` | util/thread.c, util/thread_list.c (the actions only as far as they ask whether to go on) |
| `Model/Tcp` | net/socket.c: accept, connect, skip |
| `Model/MessageFields` | message.c: the getters, setters and predicates that the other models do not need |
| `Model/Oom` | property.c and message.c once more, with requests for memory that may be refused |
| `Model/PropertyFields`, `Model/ObjectFields` | getters of properties, objects and classes |
| `Model/Records` | interfaces, datagrams, manufacturers, enumerations, observers: all setters and getters |
| `Model/NodeFields` | address, listener and transaction id of a node: setters and getters |
| `Model/ControllerFields` | listeners, user data, waiting time, options, start and stop of a controller, with the server of its node |
| `Model/ObjectSend` | sending to a node or object that was found, number and lookup of the nodes |
| `Model/OomObj` | object.c, the observer manager, node_new and controller_new once more, with requests for memory that may be refused |
| `Model/Alias` | the setters of property.c, message.c and strings.c once more, with the pointer they read from |
| `Model/Light` | examples/device/uecholight/lighting_dev.c, main.c (without printing and signals) |
| `Model/PostCmd` | examples/controller/uechopost/uechopost.c from the object on: `sscanf`, the request, printing properties |
| `Model/OomLists` | std/node_profile_class.c:284-327 once more, with requests for the temporary lists that may be refused |
| `Model/OomRecv` | the loop of frame/udp_server.c and frame/mcast_server.c once more, with requests for packets and messages that may be refused |
| `Model/Thread` | one receiver thread and one stopping thread: `util/thread.c`, receive loop of `frame/mcast_server.c` |

Models that are not of a single library file:

- `util/thread.c` (signals) and the receivers under signals → `Model/Signals.lean`
- `examples/controller/uechosearch/uechosearch.c` (verbose listing) → `Model/SearchCmd.lean`
- `lib/esp32/thread.c` → `Model/Esp32.lean`; `lib/esp32/cond.c`, `lib/esp32/mutex.c` → `Model/Esp32Cond.lean`
- `examples/controller/uechobench` → `Model/BenchCmd.lean` (the listing without `-v`, which sends nothing, is not modelled)
- `lib/esp32/interface_function.c` → `Model/Esp32If.lean` (without the MAC address)
- `examples/controller/uechodump` → `Model/DumpCmd.lean` (without the options)
- `wrapper/objc/uEcho` → `Model/ObjC.lean` (memory only: which calls touch, allocate and free what)
- `wrapper/objc/uEcho` → `Model/ObjCCalls.lean` (the values of the calls; the `nodes` and `objects` lists, names and the database are left out)
- `examples/device/uecholight/main.c` → `Model/LightMain.lean` (the loop and the signals; core-dumping and suspending signals are left out)
- `src/uecho/frame/{mcast,udp}_server_list.c` with `src/uecho/net/interface_function.c` → `Model/HostServer.lean` (both lists get the same answer)
- `examples/device/uecholight/esp32/app_main.c` → `Model/LightEsp.lean` (logging is left out; creating the task always succeeds; main.c and lighting_dev.c of that directory are the same as for Unix)
- `lib/esp32/socket.c`: `uecho_socket_recv` → `Model/Esp32Recv.lean` (the rest is `src/uecho/net/socket.c` without signals and `IP_PKTINFO`; `lib/esp32/interface.c` is a copy of `src/uecho/net/interface.c`)

Not modelled: the code under `#if defined(WIN32)`, `UECHO_USE_OPENSSL`, `HAVE_SO_NOSIGPIPE` and
`UECHO_PLATFORM_RASPBIAN`; the MAC addresses of interfaces; what the programs in `examples/` print except
where a property is about it (C149, C152, C157, C162); the build files and the tests. The operating system, the C
library, FreeRTOS, lwIP and ESP-IDF are not modelled as code: where a theorem depends on what they do, a definition says what
is assumed.

In `Model/Post` a step is one access to shared memory or one call of the operating
system; the memory is sequentially consistent. A copy of a message is one step. The
label `deliver` runs the listener without interruption, the label `arrive` starts a
thread that runs it step by step. The labels `timeout`, `spurious` and `sendFail`
are choices of the operating system, `store` and `free` of the user.

The theorems about received and sent datagrams other than C58, C88–C91 and the
`…_long_datagram_violated` ones describe the code with the calls of the trace
(`uecho_net_socket_log`) left out. C88 and C89 show that this makes no difference up to
110 bytes with IPv4 addresses, and that nothing is defined from 112 bytes on.

Parameters of the model, over which every theorem quantifies: the standard
database (`Db`; C61 and C80–C83 are about the one of the library), the host byte order, the content of fresh heap memory (`junk`),
the random bytes and first TID of a new node, and the user's handlers (pure
functions of the property and the request).

## 5. Disagreements between the code and the expected properties

Each of these is a theorem about the model (suffix `_violated`).

* C07: the TID bytes on the wire are in host order.
* C09: copying a SetGet message loses its sections.
* C11/C12: the 256th property added to a section overflows the one-byte count.
* C15: 0x51 is not classified as a response.
* C17: the bitmap writer loses or misplaces codes from 0xC0 on.
* C19: reading a map whose count exceeds its content leaves output cells unwritten.
* C20, C25: property maps go stale (removal, attribute changes).
* C23: asking for the data of an absent property adds it.
* C29: from 85 instances on, the instance list exceeds 255 bytes.
* C31: a request naming two or more properties in a section is always answered
  with the error ESV, because a `bool` is compared with the property count.
* C32: a refused 0x61 is answered 0x50.
* C35: access attributes are never checked.
* C40: handlers registered for 0x6E are never called.
* C42: a property created by `uecho_object_setpropertyattribute` is never announced.
* C43: the source object of an announcement is always the node profile.
* C65: rebuilding maps of an object whose map property was removed reads NULL.
* C66: a NULL handler can be registered, and is then called.
* C67: the error response to 0x60 carries no data.
* C45: two threads that send at the same time can use the same TID.
* C46: a response that is being stored when its post returns is handed to the next post.
* C47: any frame with the TID of the request and another ESV ends a post, whoever
  sent it; so does a spurious wake-up.
* C48: a response between the sending of the request and the start of the wait is lost.
* C49: after a refused send the controller keeps the pointers of the caller, writes
  through them on a later message, and reads freed memory if the caller deleted them.
* C53: a report of a new property rebuilds the cached maps; a reported 0xD6 is not cached.
* C54: a notification also causes "responded"; some errors do not; see the theorems.
* C55: disabling a disabled option enables it.
* C68: the announcement of a starting node (0xD5) does not add it to a controller.
* C70: an error response to a read erases the cached values.
* C72: `uecho_controller_searchobject` takes one byte as object code.
* C73: a waiting time below one second is no wait; up to two seconds are missing otherwise.
* C74: the poster of a SetGet request gets a response without properties.
* C57: `uecho_string_setpointer(NULL, n)` followed by an append exposes uninitialised memory;
  setting a string to its own value reads freed memory.
* C58: tracing a datagram of 112 bytes or more (IPv4: from 111 on) overruns a stack buffer.
* C60: an observer registered while the server runs is not called before the next start.
* C62: announcing on a stopped server reports success although nothing was sent.
* C63: stopping does not wait for the receiver thread: handlers run afterwards, on freed memory.
* C77: a buffer of one byte or none is overrun.
* C80: properties with rules "required_c"/"required_o" are neither readable nor writable.
* C81: for codes that the super class also has, the rules of the class are ignored.
* C82: the Get map of every standard object misses all codes from 0xC0 on (a node profile does
  not list 0xD3..0xD7).
* C86: the manufacturer code of a profile reads as 0 or 1 (the getter returns `bool`).
* C87: a remote write of five or more bytes to 0x8A makes the getter of the manufacturer code undefined (shift).
* C66, C71: with the trace, every datagram of 112 bytes or more is undefined behaviour for every node and every controller.
* C88: a sender whose address has no text in 31 characters makes the trace read uninitialised memory.
* C89: a node with 33 to 84 instances cannot be started: tracing the announcement overruns the buffer.
* C90: a frame longer than 512 bytes is cut by the receive buffer and then dropped.
* C91: one error of `recvfrom` ends the receiver thread for good.
* C92: `property.c` has no lock: while the application reads a property, a receiver thread that handles a write request frees its data (use after free); two writers can free it twice.
* C93: `list.c` has no lock: two receiver threads that add nodes at the same time lose one of them.
* C94: `uecho_controller_handlesearchmessage` looks for the node and adds it without a lock: two receiver threads (unicast and multicast, or two interfaces) list the same node twice.
* C95: `uecho_standard_getdatabase` publishes the database before it is filled: a second thread can get it empty.
* C97: `uecho_strtrimwhite` subtracts every white character, wherever it is, from the length: `"a b"` becomes `"a "`, `" a"` becomes `" "`.
* C98: `uecho_string_tokenizer_new` with an empty text computes the last position as SIZE_MAX and reads behind the text; `uecho_string_tokenizer_nextalltoken` without a next token writes through NULL.
* C99: `uecho_string_replace`: the inner `continue` goes on with the later patterns; an empty result leaves the text unchanged; an empty pattern never ends.
* C100: `uecho_strncat` writes no terminator if the added text does not fit.
* C101: `uecho_node_announceproperty` sets the device as source, then `uecho_node_announcemessage` overwrites it with the node profile; a controller files the announced value under the node profile.
* C102: the controller takes any Get_Res, INF or INFC_Res with the one property 0xD6 for an instance list, also one of a device.
* C103: `uecho_socket_isbound` tests `0 < id`, so a socket that got descriptor 0 is never closed.
* C104: `uecho_socket_bind` returns without `freeaddrinfo` if `uecho_socket_open` or `setsockopt` fails.
* C105, C106: `uecho_socket_tosockaddrinfo` calls `uecho_socket_startup` at every lookup and nothing calls `cleanup` for it: the count only grows, SIGPIPE stays ignored, and after 2^31 messages the signed count overflows. `uecho_socket_startup` replaces the application's handler without keeping it.
* C107: `uecho_message_setopc` on a message that has properties overwrites the array pointer: 1 + 2·n blocks are lost for n empty properties. A property added to two messages is freed twice (nothing in the API says that adding moves ownership). The 256th property is stored before the block.
* C108: `uecho_node_delete` frees the classes and objects before it stops the receiver threads, which work on them. A handler that sets a handler for its own ESV and code frees the list node that the notify loop reads next; a handler that adds a property with the code of the request frees the property that is then written. `uecho_controller_postmessage` leaves the pointers to request and response in the controller when the message cannot be sent: the next datagram uses them. A property that is added twice to an object is freed while it is in the list. The size of the Get map cache is not reset when the cache is freed (the pointer is set to 0 twice instead): after `uecho_object_clearproperties` the next `uecho_object_setcode` copies from a NULL pointer.
* C111: nothing limits the nodes of a controller; any host on the network can make it allocate without end by announcing itself from many addresses.
* C113: `uecho_net_selectaddr` reads every entry as IPv4. For an IPv6 entry it reads the flow label, 0 in practice, as address and as mask; this is on the network of every sender, so a datagram from outside the networks listed before it is given the local address 0.0.0.0.
* C114: `uecho_net_isipv6address` asks for a position greater than 0 of the first colon: `::1` is not an IPv6 address for it. `uecho_net_getipv6scopeid` reads 8 digits.
* C115: the waiting time is divided by 20 before it is multiplied again: below 20 milliseconds there is no wait. `usleep` takes 32 bits of microseconds: a wait of 24 hours lasts for 8 minutes.
* C117: `uecho_net_socket_log` does not use its severity, so that datagrams and messages that could not be parsed are not printed at the levels ERROR, WARN and INFO.
* C118: `uecho_strcmp(NULL, NULL)` is -1, so NULL is less than itself.
* C119: `bufSize` is used only if `HAVE_SNPRINTF` is defined, which the build never does; the functions write up to 21 characters into any buffer. `%zd` for a `size_t` shows sizes from 2^63 on as negative.
* C120: adding an element to the list it is in deletes it, and then links freed memory.
* C121: `uecho_standard_freedatabase` leaves the static pointer; `uecho_standard_getdatabase` is not synchronised, and stores the pointer before the database is filled. A program that leaves `main` while a controller runs has the receiver read freed memory when a new node is heard.
* C122: `uecho_thread_start` does not ask whether the thread runs, `uecho_thread_stop` does not wait for the action to end; `uecho_threadlist_start` returns true always.
* C123: `uecho_socket_accept` overwrites the descriptor of the client socket without closing it.
* **C125** Requests for memory that are refused: `uecho_message_setopcep`, `uecho_property_add` and `uecho_message_getbytes` use the result unchecked, so that a received frame with properties makes the receiver write through NULL; `uecho_property_adddata` loses the old block and keeps its length; `uecho_property_setintegerdata` returns true; `uecho_property_copy` and `uecho_message_copy` return incomplete copies; a message whose parsing failed is sent with bytes never written.
* **C127** `uecho_property_copy` does not copy the type.
* **C129** `uecho_propertylist_getdatasize` returns a `byte`: the size of 256 bytes is 0, although `uecho_object_getpropertydatasize` returns an `int`.
* **C132** An INFC is treated like a read request: a node that lacks the property, or is sent two or more, does not acknowledge, and the acknowledgement carries the receiver's own data instead of none.
* **C133** `uecho_node_getobjectbycode` compares all three bytes, so a request to instance code 0 (all instances) reaches no instance.
* **C69** From 85 instances on the length byte of the instance list is the length modulo 256; the controller cuts the list (or, at exactly 85, ignores the answer).
* **C135** `uecho_socket_datagram_packet_copy` hands a NULL address to `uecho_string_setvalue`, which ignores it: the copy keeps the address it had. Copying a datagram to itself frees the data and then copies from it.
* **C134** `uecho_object_property_observer_new` does not initialise the service.
* **C136** `uecho_udp_server_start` and `uecho_mcast_server_start` begin with a stop, which closes the socket of a running receiver; the start then fails because there is no socket. `…serverlist_isrunning` asks only whether the list has an element, so a stopped list says it is running.
* **C137** `uecho_nodeprofile_setversion` writes `00 10` as the message formats, so neither of the two formats of the specification (bits 0 and 1 of the third byte) is claimed. The identification number of a new node has random bytes where the code of the maker belongs, and setting the code of the maker does not change it.
* **C141** `uecho_controller_enableudpserver` toggles the option with `^=` (C55): called on a new controller it switches the unicast receivers off, and the controller runs without them. A switch of a running controller has no effect until the next start.
* C146: `uecho_object_updatepropertymaps` does not check its `realloc`s, `uecho_object_property_observer_manager_new` does not check the list it makes, `uecho_node_new` and `uecho_controller_new` use the server and the node before checking them; `uecho_object_setpropertyrequesthandler` removes the old handler before it has the new one; `uecho_node_new` does not look at the answer of `uecho_server_addobserver`, so a node is returned that hears nothing. `uecho_nodeprofile_updateinstanceproperties` writes to its temporary lists without checking them (std/node_profile_class.c:284-327, `C146_lists_violated`). The receivers do not free the packet of a datagram for whose message there is no memory (frame/udp_server.c:171-172, mcast_server.c the same) and end for ever when there is none for a packet (lines 156-157; `C146_receiver_violated`).
* C147: every setter frees the old value before it copies the new one, so a value of its own is read from freed memory; `uecho_message_equals(m, m)` compares with the bytes that its second `uecho_message_getbytes` freed; `uecho_message_set(m, m)` empties `m`. In the model `realloc` always moves, so for `uecho_property_adddata` this says that it may go wrong.
* C148: `uecho_lighting_propertyrequesthandler` returns true for every single byte, so the light stores powers that do not exist; `uecho_light_new` makes the power read-write and drops that it is announced; `main` sets the maker code before it adds the light, which keeps 0xFFFFF0; the Get map of the light says 50 properties instead of 25 (object_super_class.c: the size is added up over two calls).
* C149: uechopost.c:184 tests `dstNode` instead of `dstObj`, so a request for an object that the node does not have is sent to 000000; with SetGet (6E) the properties go into a list that is not sent; a property whose data is cut off, the prefix `0x` (its code is taken for a size), text that is not hexadecimal (the variables are uninitialised) and arguments after the fourth are silently accepted or dropped; 256 different codes overflow the count of the message.
* C150: building the property maps sets the attribute of a map with up to 15 entries to "readable" (object.c:360-394), so that a map that the standard requires no longer counts as required; an object of a class that is not in the database is given the name "Super class" (object.c:164-198).
* C151: each thread of the library sets the handler of SIGQUIT for the whole process to an empty function (util/thread.c:47-51) and nothing puts the application's back; SIGQUIT given to a receiver interrupts `recvfrom` (no SA_RESTART), and the receiver ends (udp_server.c:159-163, mcast_server.c:154-158) although the node was not stopped; between `pthread_create` and its first step a receiver has the mask of its creator and can run the application's handlers.
* C152: get_nodemanufacturename passes the answer to the question for the manufacturer to uecho_bytes_toint with whatever size it has: five bytes shift an `int` by 32, four with a high first byte overflow (uechosearch.c:66). A device can make the command do something undefined. The map of writable properties (0x9E), required by the standard, is not listed, as C150.
* C153: on ESP32 uecho_thread_stop calls vTaskDelete on the handle although a receiver whose socket failed has deleted its own task (lib/esp32/thread.c:27,112): undefined. A task deleted between the last two assignments of uecho_list_insert leaves a list in which all later additions are lost. Starting twice loses the handle of the first task.
* C154: on ESP32 a signal for a wait that timed out is kept and ends the next wait at once; `timeout_ms == 0` waits for ever. (src/uecho/controller.c calls uecho_cond_timedwait, which the port neither declares nor defines, so that a controller does not link there; the claims are about the functions of the port.)
* C155: `repeatCnt = atoi(optarg)` turns a negative count of uechobench into more than 2^63 walks (examples/controller/uechobench/uechobench.c:129,150).
* C156: on ESP32 the address in network byte order is compared with IPADDR_LOOPBACK in host byte order (lib/esp32/interface_function.c:37): 127.0.0.1 is listed and 1.0.0.127 is not. uecho_net_selectaddr does not look at the sender (lines 73-75 say so).
* C157: uechodump prints the properties of one section only, so that a SetGet message is shown with 0 properties (examples/controller/uechodump/uechodump.c:38, 49-52). At the end of the input `continue` goes to the condition `key != 'q'` of the loop, which then never ends (lines 113-126); `Q` does not end it.
* C158: `postMessage` allocates the response and wraps it with `initWithCObject`, which marks the object as weak (wrapper/objc/uEcho/CGEchoController.m:109, CGEchoMessage.m:30-37): no response is ever freed. The objects for properties, nodes and arrived messages are weak as well and keep nothing: `NSArray *p = [msg properties]` after `msg` is gone, nodes after the next `start`, and messages that an observer kept point to freed memory.
* C159: `search` answers YES without looking at the answer of `uecho_controller_search` (wrapper/objc/uEcho/CGEchoController.m:74-75); `announceMessage` takes a node and sends to the group all the same (CGEchoController.m:78-83); the response to a SetGet request has no properties because `uecho_message_set` does not copy them (C74).
* C160: `main` of uecholight calls `sigwait` without blocking the signals first (examples/device/uecholight/main.c:90-97). POSIX leaves this undefined; on Linux SIGTERM, SIGINT and SIGHUP then end the process at once, so the restart is never reached (`C160_unblocked_violated`). The `SIGKILL` case cannot be reached at all. If the restart fails the loop ends and the program returns success (`C160_restart_violated`).
* C161: `uecho_net_gethostinterfaces` takes point-to-point connections, `uecho_net_selectaddr` does not (src/uecho/net/interface_function.c:424), so a node behind a tunnel only names 127.0.0.1 as its address; the loopback interface is never opened, so no node starts on a host without a network.
* C162: since access attributes are never checked (C35), one datagram that writes an empty list to the property D6 of the node profile hides the light from every controller that does not know it yet; `uecho_node_start` does not build the list again (`C162_hidden`).
* C163: `ip_event_handler` creates a task with `main` at every `IP_EVENT_STA_GOT_IP`, so that a new lease starts a second light beside the first (examples/device/uecholight/esp32/app_main.c:39-43); `wifi_event_handler` only logs a disconnection and never calls `esp_wifi_connect` again (lines 32-34). How the ESP-IDF produces events is part of the trusted base (`Spec/LightEsp.lean`).
* C164: the trace of lib/esp32/socket.c:544 reads `remoteAddr` although it is only written for IPv4 senders (lines 534-539).
